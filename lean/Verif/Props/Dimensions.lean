import Verif.Props.Raises
/-!
# C99: operands of different dimensions

For every number type: what the library does when the dimensions of its arguments do not match.  The dot product is checked;
element-wise operations broadcast arrays of length one; everything else raises `ValueError`.
-/

namespace SkSpatial
variable {K : Type} [PyNum K]

/-! ### Lemmas -/

theorem dot_ok_len {a b : List K} {d : K} (h : dot a b = .ok d) : a.length = b.length := by
  unfold dot at h
  split at h
  · assumption
  · simp at h

theorem new1D_eq' {x y : List K} (h : new1D x = .ok y) : y = x ∧ x.length ≠ 0 := by
  unfold new1D at h
  split at h
  · simp at h
  split at h
  · simp at h
  cases h
  exact ⟨rfl, by assumption⟩

/-- The lengths of two arrays that a ufunc accepts, and of its result. -/
def Broadcast (m n k : ℕ) : Prop := (m = n ∧ k = m) ∨ (m = 1 ∧ k = n) ∨ (n = 1 ∧ k = m)

omit [PyNum K] in
theorem broadcast2_ok_len {f : K → K → K} {a b r : List K} (h : broadcast2 f a b = .ok r) :
    Broadcast a.length b.length r.length := by
  unfold broadcast2 at h
  split at h
  · rename_i hl
    cases h
    left
    simp [hl]
  split at h <;> cases h
  · right; left; simp
  · right; right; simp

theorem fromPoints_ok_len {a b r : List K} (h : Vec.fromPoints a b = .ok r) :
    Broadcast b.length a.length r.length ∧ r.length ≠ 0 := by
  simp only [Vec.fromPoints, vsub, bind_ok_iff] at h
  obtain ⟨d, hd, h⟩ := h
  obtain ⟨rfl, h0⟩ := new1D_eq' h
  exact ⟨broadcast2_ok_len hd, h0⟩

theorem unit_ok_len {v u : List K} (h : Vec.unit v = .ok u) : u.length = v.length := by
  unfold Vec.unit at h
  dsimp only at h
  split at h
  · simp at h
  cases h
  simp [sdiv]

theorem projectVector_ok_len {a b r : List K} (h : Vec.projectVector a b = .ok r) :
    a.length = b.length ∧ r.length = a.length := by
  simp only [Vec.projectVector, bind_ok_iff, pure_ok, Except.ok.injEq] at h
  obtain ⟨n, hn, d, hd, rfl⟩ := h
  exact ⟨dot_ok_len hn, by simp [smul]⟩

theorem cosineSimilarity_ok_len {a b : List K} {r : K} (h : Vec.cosineSimilarity a b = .ok r) :
    a.length = b.length := by
  simp only [Vec.cosineSimilarity, bind_ok_iff] at h
  obtain ⟨o, -, h⟩ := h
  split at h
  · simp at h
  simp only [bind_ok_iff] at h
  obtain ⟨d, hd, -⟩ := h
  exact dot_ok_len hd

/-- What a successful `Line(point, direction)` or `Plane(point, normal)` has checked. -/
theorem newLinePlane_dims {a b p v : List K} (h : newLinePlane a b = .ok (p, v)) :
    p = a ∧ v = b ∧ a.length = b.length ∧ a.length ≠ 0 ∧ Vec.isZero Tol.default b = .ok false := by
  simp only [newLinePlane, bind_ok_iff] at h
  obtain ⟨p', hp, v', hv, h⟩ := h
  obtain ⟨rfl, h0⟩ := new1D_eq' hp
  obtain ⟨rfl, -⟩ := new1D_eq' hv
  split at h
  · simp at h
  rename_i hl
  simp only [bind_ok_iff] at h
  obtain ⟨z, hz, h⟩ := h
  split at h
  · simp at h
  rename_i hzf
  cases h
  refine ⟨rfl, rfl, not_not.mp hl, h0, ?_⟩
  rw [hz]
  cases z
  · rfl
  · exact absurd rfl hzf

theorem line_new_dims {a b : List K} {l : Line K} (h : Line.new a b = .ok l) :
    l.point = a ∧ l.direction = b ∧ a.length = b.length ∧ a.length ≠ 0 ∧
      Vec.isZero Tol.default b = .ok false := by
  simp only [Line.new, bind_ok_iff] at h
  obtain ⟨⟨p, v⟩, h1, h2⟩ := h
  obtain ⟨rfl, rfl, h3⟩ := newLinePlane_dims h1
  cases h2
  exact ⟨rfl, rfl, h3⟩

theorem plane_new_dims {a b : List K} {l : Plane K} (h : Plane.new a b = .ok l) :
    l.point = a ∧ l.normal = b ∧ a.length = b.length ∧ a.length ≠ 0 ∧
      Vec.isZero Tol.default b = .ok false := by
  simp only [Plane.new, bind_ok_iff] at h
  obtain ⟨⟨p, v⟩, h1, h2⟩ := h
  obtain ⟨rfl, rfl, h3⟩ := newLinePlane_dims h1
  cases h2
  exact ⟨rfl, rfl, h3⟩

/-! ### Vectors -/

/-- **C99**, the dot product: arrays of different lengths raise `ValueError`, even when one has length one. -/
theorem C99_dot {a b : List K} (h : a.length ≠ b.length) :
    RaisesValueError (dot a b) ∧ (∀ t, RaisesValueError (Vec.isPerpendicular t a b)) ∧
    RaisesValueError (Vec.projectVector a b) ∧ RaisesValueError (Vec.scalarProjection a b) ∧
    RaisesValueError (Vec.cosineSimilarity a b) ∧ RaisesValueError (Vec.angleBetween a b) ∧
    RaisesValueError (Vec.angleSigned a b) ∧ RaisesValueError (Vec.sideVector a b) := by
  refine ⟨.of_only (by ov) fun d hd => h (dot_ok_len hd), fun t => .of_only (by ov) fun d hd => ?_,
    .of_only (by ov) fun d hd => h (projectVector_ok_len hd).1, .of_only (by ov) fun d hd => ?_,
    .of_only (by ov) fun d hd => h (cosineSimilarity_ok_len hd), .of_only (by ov) fun d hd => ?_,
    .of_only (by ov) fun d hd => ?_, .of_only (by ov) fun d hd => ?_⟩
  · simp only [Vec.isPerpendicular, bind_ok_iff] at hd
    obtain ⟨x, hx, -⟩ := hd
    exact h (dot_ok_len hx)
  · simp only [Vec.scalarProjection, bind_ok_iff] at hd
    obtain ⟨x, hx, hd⟩ := hd
    exact h ((unit_ok_len hx) ▸ dot_ok_len hd)
  · simp only [Vec.angleBetween, bind_ok_iff] at hd
    obtain ⟨x, hx, hd⟩ := hd
    exact h (cosineSimilarity_ok_len hx)
  · simp only [Vec.angleSigned, bind_ok_iff] at hd
    obtain ⟨x, hx, hd⟩ := hd
    split at hd
    · simp at hd
    simp only [bind_ok_iff] at hd
    obtain ⟨y, hy, -⟩ := hd
    exact h (dot_ok_len hy)
  · simp only [Vec.sideVector, bind_ok_iff] at hd
    obtain ⟨x, hx, hd⟩ := hd
    obtain ⟨rfl, -⟩ := new1D_eq' hx
    split at hd
    · simp at hd
    rename_i hn
    push Not at hn
    omega

/-- **C99**, `angle_signed_3d`: the three vectors must be 3D. -/
theorem C99_angle_signed_3d {a b c : List K} (h : a.length ≠ 3 ∨ b.length ≠ 3 ∨ c.length ≠ 3) :
    RaisesValueError (Vec.angleSigned3d a b c) := by
  refine .of_only (by ov) fun d hd => ?_
  simp only [Vec.angleSigned3d, bind_ok_iff] at hd
  obtain ⟨x, hx, y, hy, hd⟩ := hd
  obtain ⟨rfl, -⟩ := new1D_eq' hx
  obtain ⟨rfl, -⟩ := new1D_eq' hy
  split at hd
  · simp at hd
  rename_i hn
  simp only [Bool.not_eq_true', Bool.and_eq_false_iff, decide_eq_false_iff_not, not_or, not_not] at hn
  omega

/-- **C99**, `is_parallel`: with vectors of different dimensions it returns only `True`, and only because one of them is
the zero vector for the tolerance. -/
theorem C99_is_parallel {a b : List K} (h : a.length ≠ b.length) (t : Tol K) :
    (∀ r, Vec.isParallel t a b = .ok r →
      r = true ∧ (Vec.isZero t a = .ok true ∨ Vec.isZero t b = .ok true)) ∧
    (Vec.isZero t a = .ok true → Vec.isParallel t a b = .ok true) := by
  refine ⟨fun r hr => ?_, fun hz => by simp [Vec.isParallel, hz]⟩
  simp only [Vec.isParallel, bind_ok_iff] at hr
  obtain ⟨z, ⟨z1, hz1, hz⟩, hr⟩ := hr
  have key : z = true := by
    cases z with
    | true => rfl
    | false =>
      simp only [Bool.false_eq_true, if_false, bind_ok_iff] at hr
      obtain ⟨s, hs, -⟩ := hr
      exact absurd (cosineSimilarity_ok_len hs) h
  subst key
  simp only [if_true, pure_ok, Except.ok.injEq] at hr
  refine ⟨hr.symm, ?_⟩
  cases z1 with
  | true => exact Or.inl hz1
  | false =>
    simp only [Bool.false_eq_true, if_false, bind_ok_iff] at hz
    obtain ⟨o, ho, hz⟩ := hz
    obtain ⟨rfl, -⟩ := new1D_eq' ho
    exact Or.inr hz

/-- Non-zero vectors of different dimensions make `is_parallel` raise. -/
theorem isParallel_raises {a b : List K} (h : a.length ≠ b.length) {t : Tol K}
    (ha : Vec.isZero t a = .ok false) (hb : Vec.isZero t b = .ok false) :
    RaisesValueError (Vec.isParallel t a b) := by
  refine .of_only (by ov) fun d hd => ?_
  obtain ⟨-, h1 | h1⟩ := (C99_is_parallel h t).1 d hd
  · rw [ha] at h1; cases h1
  · rw [hb] at h1; cases h1

/-! ### Points -/

/-- **C99**, differences of points: the dimensions must be equal, unless one is 1. -/
theorem C99_points {a b : List K} (h : a.length ≠ b.length) (ha : a.length ≠ 1) (hb : b.length ≠ 1) :
    RaisesValueError (Vec.fromPoints a b) ∧ RaisesValueError (Pt.distancePoint a b) ∧
    RaisesValueError (Line.fromPoints a b) ∧ (∀ r, RaisesValueError (Cylinder.fromPoints a b r)) ∧
    RaisesValueError (LineSegment.new a b) ∧ (∀ t, RaisesValueError (arrIsClose t a b)) := by
  have key : ∀ r, Vec.fromPoints a b ≠ .ok r := fun r hr => by
    obtain ⟨h1 | h1 | h1, -⟩ := fromPoints_ok_len hr <;> omega
  have kp : ∀ r, broadcastPairs a b ≠ .ok r := fun r hr => by
    unfold broadcastPairs at hr
    rw [if_neg h] at hr
    split at hr
    · exact ha rfl
    · exact hb rfl
    · simp at hr
  have kc : ∀ t r, arrIsClose t a b ≠ .ok r := fun t r hr => by
    simp only [arrIsClose, bind_ok_iff] at hr
    obtain ⟨p, hp, -⟩ := hr
    exact kp p hp
  refine ⟨.of_only (by ov) key, .of_only (by ov) fun r hr => ?_, .of_only (by ov) fun r hr => ?_,
    fun r => .of_only (by ov) fun r hr => ?_, .of_only (by ov) fun r hr => ?_, fun t => .of_only (by ov) (kc t)⟩
  · simp only [Pt.distancePoint, bind_ok_iff] at hr
    obtain ⟨v, hv, -⟩ := hr
    exact key v hv
  · simp only [Line.fromPoints, bind_ok_iff] at hr
    obtain ⟨v, hv, -⟩ := hr
    exact key v hv
  · simp only [Cylinder.fromPoints, bind_ok_iff] at hr
    obtain ⟨v, hv, -⟩ := hr
    exact key v hv
  · simp only [LineSegment.new, bind_ok_iff] at hr
    obtain ⟨x, hx, y, hy, z, hz, -⟩ := hr
    obtain ⟨rfl, -⟩ := new1D_eq' hx
    obtain ⟨rfl, -⟩ := new1D_eq' hy
    exact kc _ _ hz

/-- **C99**, constructors that compare dimensions: `Line`, `Plane`, `Triangle`, `Plane.from_points`, `Circle`,
`Circle.from_points`, `Sphere`, `Cylinder`. -/
theorem C99_constructors [NumpyExt K] :
    (∀ a b : List K, a.length ≠ b.length → RaisesValueError (Line.new a b) ∧ RaisesValueError (Plane.new a b)) ∧
    (∀ a b c : List K, a.length ≠ b.length ∨ b.length ≠ c.length →
      RaisesValueError (Triangle.new a b c) ∧ ∀ t, RaisesValueError (Plane.fromPoints t a b c)) ∧
    (∀ a b c : List K, a.length ≠ 2 ∨ b.length ≠ 2 ∨ c.length ≠ 2 → ∀ t, RaisesValueError (Circle.fromPoints t a b c)) ∧
    (∀ (p : List K) (r : K), p.length ≠ 2 → RaisesValueError (Circle.new p r)) ∧
    (∀ (p : List K) (r : K), p.length ≠ 3 → RaisesValueError (Sphere.new p r)) ∧
    (∀ (p v : List K) (r : K), p.length ≠ 3 ∨ v.length ≠ 3 → RaisesValueError (Cylinder.new p v r)) := by
  have np : ∀ a b c : List K, a.length ≠ b.length ∨ b.length ≠ c.length → ∀ r, newPoints [a, b, c] ≠ .ok r := by
    intro a b c h r hr
    unfold newPoints at hr
    dsimp only at hr
    split at hr
    · simp at hr
    rename_i hn
    simp only [List.all_cons, List.all_nil, Bool.and_true, Bool.not_eq_true', Bool.and_eq_false_iff,
      decide_eq_false_iff_not, not_or, not_not] at hn
    omega
  refine ⟨fun a b h => ⟨.of_only (by ov) fun r hr => h (line_new_dims hr).2.2.1,
    .of_only (by ov) fun r hr => h (plane_new_dims hr).2.2.1⟩, fun a b c h => ⟨.of_only (by ov) fun r hr => ?_,
    fun t => .of_only (by ov) fun r hr => ?_⟩, fun a b c h t => .of_only (by ov) fun r hr => ?_,
    fun p r h => .of_only (by ov) fun s hs => ?_, fun p r h => .of_only (by ov) fun s hs => ?_,
    fun p v r h => .of_only (by ov) fun s hs => ?_⟩
  · simp only [Triangle.new, bind_ok_iff] at hr
    obtain ⟨x, hx, y, hy, z, hz, hr⟩ := hr
    obtain ⟨rfl, -⟩ := new1D_eq' hx
    obtain ⟨rfl, -⟩ := new1D_eq' hy
    obtain ⟨rfl, -⟩ := new1D_eq' hz
    split at hr
    · simp at hr
    simp only [bind_ok_iff] at hr
    obtain ⟨w, hw, -⟩ := hr
    exact np _ _ _ h w hw
  · simp only [Plane.fromPoints, bind_ok_iff] at hr
    obtain ⟨w, hw, -⟩ := hr
    exact np _ _ _ h w hw
  · simp only [Circle.fromPoints, bind_ok_iff] at hr
    obtain ⟨x, hx, y, hy, z, hz, hr⟩ := hr
    obtain ⟨rfl, -⟩ := new1D_eq' hx
    obtain ⟨rfl, -⟩ := new1D_eq' hy
    obtain ⟨rfl, -⟩ := new1D_eq' hz
    split at hr
    · simp at h
    · simp at hr
  · simp only [Circle.new, newBaseSphere] at hs
    split at hs
    · simp at hs
    simp only [bind_ok_iff, pure_ok, Except.ok.injEq] at hs
    obtain ⟨⟨q, r'⟩, ⟨q', hq, e⟩, hs⟩ := hs
    cases e
    obtain ⟨rfl, -⟩ := new1D_eq' hq
    simp [h] at hs
  · simp only [Sphere.new, newBaseSphere] at hs
    split at hs
    · simp at hs
    simp only [bind_ok_iff, pure_ok, Except.ok.injEq] at hs
    obtain ⟨⟨q, r'⟩, ⟨q', hq, e⟩, hs⟩ := hs
    cases e
    obtain ⟨rfl, -⟩ := new1D_eq' hq
    simp [h] at hs
  · simp only [Cylinder.new, bind_ok_iff] at hs
    obtain ⟨x, hx, y, hy, hs⟩ := hs
    obtain ⟨rfl, -⟩ := new1D_eq' hx
    obtain ⟨rfl, -⟩ := new1D_eq' hy
    split at hs
    · simp at hs
    split at hs
    · simp at hs
    omega

/-! ### Lines and planes against points -/

theorem line_project_ok_len {l : Line K} {p r : List K} (h : Line.projectPoint l p = .ok r)
    (hl : l.point.length = l.direction.length) : p.length = l.point.length ∨ p.length = 1 := by
  simp only [Line.projectPoint, bind_ok_iff] at h
  obtain ⟨v, hv, w, hw, -⟩ := h
  have h2 := (projectVector_ok_len hw).1
  obtain ⟨h1 | h1 | h1, -⟩ := fromPoints_ok_len hv <;> omega

theorem plane_signed_ok_len {P : Plane K} {p : List K} {r : K} (h : Plane.distancePointSigned P p = .ok r)
    (hl : P.point.length = P.normal.length) : p.length = P.point.length ∨ p.length = 1 := by
  simp only [Plane.distancePointSigned, bind_ok_iff, Vec.scalarProjection] at h
  obtain ⟨v, hv, u, hu, hw⟩ := h
  have h2 := dot_ok_len hw
  rw [unit_ok_len hu] at h2
  obtain ⟨h1 | h1 | h1, -⟩ := fromPoints_ok_len hv <;> omega

theorem mapM_ok_dims {α β : Type} {f : α → Res β} {l : List α} {r : List β} (h : l.mapM f = .ok r) :
    ∀ a ∈ l, ∃ b ∈ r, f a = .ok b := by
  induction l generalizing r with
  | nil => simp
  | cons x xs ih =>
    rw [List.mapM_cons] at h
    simp only [bind_ok_iff, pure_ok, Except.ok.injEq] at h
    obtain ⟨y, hy, ys, hys, rfl⟩ := h
    intro a ha
    rcases List.mem_cons.mp ha with rfl | ha
    · exact ⟨y, by simp, hy⟩
    · obtain ⟨b, hb, e⟩ := ih hys a ha
      exact ⟨b, by simp [hb], e⟩

omit [PyNum K] in
theorem checkRows_ok {ps : List (List K)} {u : Unit} (h : checkRows ps = .ok u) :
    ps ≠ [] ∧ ∀ p ∈ ps, ∀ q ∈ ps, p.length = q.length := by
  unfold checkRows at h
  split at h
  · simp at h
  split at h
  · rename_i r rs ha
    have ha' : ∀ s ∈ rs, s.length = r.length := by simpa using ha
    refine ⟨by simp, fun p hp q hq => ?_⟩
    have key : ∀ s ∈ r :: rs, s.length = r.length := by
      intro s hs
      rcases List.mem_cons.mp hs with rfl | hs
      · rfl
      · exact ha' s hs
    rw [key p hp, key q hq]
  · simp at h

theorem RaisesValueError.bind {α β : Type} {r : Res α} (h : RaisesValueError r) (f : α → Res β) : RaisesValueError (r >>= f) := by
  obtain ⟨m, rfl⟩ := h
  exact ⟨m, rfl⟩

omit [PyNum K] in
theorem mapM_raises {α β : Type} {f : α → Res β} {l : List α} (hl : l ≠ []) (h : ∀ a ∈ l, RaisesValueError (f a)) :
    RaisesValueError (l.mapM f) := by
  cases l with
  | nil => exact absurd rfl hl
  | cons a l =>
    rw [List.mapM_cons]
    exact (h a (by simp)).bind _

/-- **C99**, a line and a point: if the dimension of the point is neither that of the line nor 1, every method raises. -/
theorem C99_line_point {a b p : List K} {l : Line K} (hl : Line.new a b = .ok l)
    (h : p.length ≠ Line.dimension l) (h1 : p.length ≠ 1) :
    RaisesValueError (Line.projectPoint l p) ∧ RaisesValueError (Line.distancePoint l p) ∧
    RaisesValueError (Line.sidePoint l p) ∧ (∀ t, RaisesValueError (Line.containsPoint t l p)) ∧
    (∀ ps, p ∈ ps → RaisesValueError (Line.sumSquares l ps) ∧ RaisesValueError (Line.projectPoints l ps) ∧
      RaisesValueError (Line.distancePoints l ps) ∧ RaisesValueError (Line.transformPoints l ps)) := by
  obtain ⟨e1, e2, e3, -⟩ := line_new_dims hl
  have hd : l.point.length = l.direction.length := by rw [e1, e2, e3]
  unfold Line.dimension at h
  have kp : ∀ r, Line.projectPoint l p ≠ .ok r := fun r hr => by
    rcases line_project_ok_len hr hd with h2 | h2 <;> omega
  have kq : ∀ q : List K, q.length = p.length → RaisesValueError (Line.distancePoint l q) := fun q hq => by
    refine RaisesValueError.bind (r := Line.projectPoint l q) (.of_only (by ov) fun r hr => ?_) _
    rcases line_project_ok_len hr hd with h2 | h2 <;> omega
  have kd := kq p rfl
  have kb : ∀ ps, p ∈ ps → ∀ r, Line.projectPoints l ps ≠ .ok r := fun ps hps r hr => by
    simp only [Line.projectPoints, bind_ok_iff] at hr
    obtain ⟨-, -, vs, hvs, u, hu, ds, hds, -⟩ := hr
    obtain ⟨v, hv, e⟩ := mapM_ok_dims hvs p hps
    obtain ⟨d, -, e'⟩ := mapM_ok_dims hds v hv
    have h2 := dot_ok_len e'
    rw [unit_ok_len hu] at h2
    rcases broadcast2_ok_len e with h3 | h3 | h3 <;> omega
  refine ⟨.of_only (by ov) kp, kd, .of_only (by ov) fun r hr => ?_,
    fun t => kd.bind _, fun ps hps => ⟨?_, .of_only (by ov) (kb ps hps),
      .of_only (by ov) fun r hr => ?_, .of_only (by ov) fun r hr => ?_⟩⟩
  · simp only [Line.sidePoint, bind_ok_iff] at hr
    obtain ⟨v, hv, hr⟩ := hr
    by_cases hvd : l.direction.length = v.length
    · obtain ⟨h2 | h2 | h2, -⟩ := fromPoints_ok_len hv <;> omega
    · obtain ⟨m, hm⟩ := (C99_dot hvd).2.2.2.2.2.2.2
      rw [hm] at hr
      cases hr
  · rw [Line.sumSquares, sumSquaresFn]
    cases hc : checkRows ps with
    | error e =>
      obtain ⟨s, rfl⟩ := ov_checkRows ps e hc
      exact ⟨s, rfl⟩
    | ok u =>
      obtain ⟨h0, hr⟩ := checkRows_ok hc
      rw [ok_bind]
      exact (mapM_raises h0 fun q hq => kq q (hr q hq p hps)).bind _
  · simp only [Line.distancePoints, bind_ok_iff] at hr
    obtain ⟨v, hv, -⟩ := hr
    exact kb ps hps v hv
  · simp only [Line.transformPoints, transformCoordinates, bind_ok_iff] at hr
    obtain ⟨u, hu, c, ⟨-, -, -, -, vs, hvs, hc⟩, -⟩ := hr
    obtain ⟨v, hv, e⟩ := mapM_ok_dims hvs p hps
    obtain ⟨w, -, e'⟩ := mapM_ok_dims hc v hv
    obtain ⟨d, -, e''⟩ := mapM_ok_dims e' u (by simp)
    have h2 := dot_ok_len e''
    rw [unit_ok_len hu] at h2
    rcases broadcast2_ok_len e with h3 | h3 | h3 <;> omega

/-- **C99**, a plane and a point: if the dimension of the point is neither that of the plane nor 1, every method raises. -/
theorem C99_plane_point {a b p : List K} {P : Plane K} (hl : Plane.new a b = .ok P)
    (h : p.length ≠ Plane.dimension P) (h1 : p.length ≠ 1) :
    RaisesValueError (Plane.projectPoint P p) ∧ RaisesValueError (Plane.distancePointSigned P p) ∧
    RaisesValueError (Plane.distancePoint P p) ∧ RaisesValueError (Plane.sidePoint P p) ∧
    (∀ t, RaisesValueError (Plane.containsPoint t P p)) ∧
    (∀ ps, p ∈ ps → RaisesValueError (Plane.sumSquares P ps) ∧ RaisesValueError (Plane.projectPoints P ps) ∧
      RaisesValueError (Plane.distancePoints P ps) ∧ RaisesValueError (Plane.distancePointsSigned P ps)) := by
  obtain ⟨e1, e2, e3, -⟩ := plane_new_dims hl
  have hd : P.point.length = P.normal.length := by rw [e1, e2, e3]
  unfold Plane.dimension at h
  have ks : ∀ r, Plane.distancePointSigned P p ≠ .ok r := fun r hr => by
    rcases plane_signed_ok_len hr hd with h2 | h2 <;> omega
  have kd : ∀ r, Plane.distancePoint P p ≠ .ok r := fun r hr => by
    simp only [Plane.distancePoint, bind_ok_iff] at hr
    obtain ⟨v, hv, -⟩ := hr
    exact ks v hv
  have kb : ∀ ps, p ∈ ps → ∀ r, Plane.distancePointsSigned P ps ≠ .ok r := fun ps hps r hr => by
    simp only [Plane.distancePointsSigned, bind_ok_iff] at hr
    obtain ⟨-, -, vs, hvs, u, hu, hds⟩ := hr
    obtain ⟨v, hv, e⟩ := mapM_ok_dims hvs p hps
    obtain ⟨d, -, e'⟩ := mapM_ok_dims hds v hv
    have h2 := dot_ok_len e'
    rw [unit_ok_len hu] at h2
    rcases broadcast2_ok_len e with h3 | h3 | h3 <;> omega
  refine ⟨.of_only (by ov) fun r hr => ?_, .of_only (by ov) ks, .of_only (by ov) kd, .of_only (by ov) fun r hr => ?_,
    fun t => .of_only (by ov) fun r hr => ?_, fun ps hps => ⟨.of_only (by ov) fun r hr => ?_,
      .of_only (by ov) fun r hr => ?_, .of_only (by ov) fun r hr => ?_, .of_only (by ov) (kb ps hps)⟩⟩
  · simp only [Plane.projectPoint, bind_ok_iff] at hr
    obtain ⟨v, hv, w, hw, -⟩ := hr
    have h2 := (projectVector_ok_len hw).1
    obtain ⟨h3 | h3 | h3, -⟩ := fromPoints_ok_len hv <;> omega
  · simp only [Plane.sidePoint, bind_ok_iff] at hr
    obtain ⟨v, hv, -⟩ := hr
    exact ks v hv
  · simp only [Plane.containsPoint, containsPointFn, bind_ok_iff] at hr
    obtain ⟨v, hv, -⟩ := hr
    exact kd v hv
  · simp only [Plane.sumSquares, sumSquaresFn, bind_ok_iff] at hr
    obtain ⟨-, -, vs, hvs, -⟩ := hr
    obtain ⟨v, -, e⟩ := mapM_ok_dims hvs p hps
    exact kd v e
  · simp only [Plane.projectPoints, bind_ok_iff] at hr
    obtain ⟨-, -, vs, hvs, u, hu, ds, hds, -⟩ := hr
    obtain ⟨v, hv, e⟩ := mapM_ok_dims hvs p hps
    obtain ⟨d, -, e'⟩ := mapM_ok_dims hds v hv
    have h2 := dot_ok_len e'
    rw [unit_ok_len hu] at h2
    rcases broadcast2_ok_len e with h3 | h3 | h3 <;> omega
  · simp only [Plane.distancePoints, bind_ok_iff] at hr
    obtain ⟨v, hv, -⟩ := hr
    exact kb ps hps v hv

/-! ### Lines and planes against each other -/

/-- **C99**, two lines of different dimensions: every method raises (with the default tolerance).  It raises `ValueError`, except
that `is_close` with a one-dimensional argument may raise `AttributeError` instead, if some number overflows. -/
theorem C99_lines [NumpyExt K] {a b c d : List K} {l m : Line K} (hl : Line.new a b = .ok l) (hm : Line.new c d = .ok m)
    (h : Line.dimension l ≠ Line.dimension m) :
    (∀ r, Line.isClose Tol.default l (.line m) ≠ .ok r) ∧ OnlyValueOrAttributeError (Line.isClose Tol.default l (.line m)) ∧
    (Line.dimension m ≠ 1 ∨ NoOverflow K → RaisesValueError (Line.isClose Tol.default l (.line m))) ∧
    (∀ t, RaisesValueError (Line.isCoplanar t l (.line m))) ∧
    RaisesValueError (Line.distanceLine l m) ∧ (∀ k t, RaisesValueError (Line.intersectLine l m k t)) := by
  obtain ⟨e1, e2, e3, e0, e4⟩ := line_new_dims hl
  obtain ⟨f1, f2, f3, f0, f4⟩ := line_new_dims hm
  unfold Line.dimension at h
  rw [e1, f1] at h
  have hp : RaisesValueError (Vec.isParallel Tol.default l.direction m.direction) := by
    rw [e2, f2]
    exact isParallel_raises (by omega) e4 f4
  obtain ⟨s, hp⟩ := hp
  have kc : ∀ r, Line.isClose Tol.default l (.line m) ≠ .ok r := fun r hr => by
    simp only [Line.isClose, bind_ok_iff] at hr
    obtain ⟨-, -, x, h2, -⟩ := hr
    rw [hp] at h2
    cases h2
  refine ⟨kc, ova_lineIsClose _ l m, ?_, fun t => .of_only (by ov) fun r hr => ?_, ⟨s, by simp [Line.distanceLine, hp]⟩,
    fun k t => ⟨"The lines must have the same dimension.", ?_⟩⟩
  · rintro (h1 | hK)
    · rw [Line.dimension] at h1
      exact ((C99_line_point hl (by rw [Line.dimension, e1, f1]; omega) h1).2.2.2.1 _).bind _
    · exact .of_only (by ov) kc
  · simp only [Line.isCoplanar, bind_ok_iff] at hr
    obtain ⟨p2, -, p4, -, ps, hps, -⟩ := hr
    unfold newPoints at hps
    dsimp only at hps
    split at hps
    · simp at hps
    rename_i hn
    simp only [List.all_cons, List.all_nil, Bool.and_true, Bool.not_eq_true', Bool.and_eq_false_iff,
      decide_eq_false_iff_not, not_or, not_not] at hn
    rw [e1, f1] at hn
    omega
  · simp only [Line.intersectLine, Line.dimension, e1, f1]
    rw [if_pos h]

/-- **C99**, a plane and a line of different dimensions: `intersect_line` raises for every tolerance, `project_line` with the
default one. -/
theorem C99_plane_line {a b c d : List K} {P : Plane K} {l : Line K} (hP : Plane.new a b = .ok P) (hl : Line.new c d = .ok l)
    (h : Plane.dimension P ≠ Line.dimension l) :
    (∀ t, RaisesValueError (Plane.intersectLine t P l)) ∧ RaisesValueError (Plane.projectLine Tol.default P l) := by
  obtain ⟨e1, e2, e3, e0, e4⟩ := plane_new_dims hP
  obtain ⟨f1, f2, f3, f0, f4⟩ := line_new_dims hl
  unfold Line.dimension Plane.dimension at h
  rw [e1, f1] at h
  have hn : P.normal.length ≠ l.direction.length := by rw [e2, f2]; omega
  refine ⟨fun t => ?_, ?_⟩
  · obtain ⟨s, hs⟩ := (C99_dot hn).2.1 t
    exact ⟨s, by simp [Plane.intersectLine, hs]⟩
  · obtain ⟨s, hs⟩ : RaisesValueError (Vec.isParallel Tol.default P.normal l.direction) := by
      rw [e2, f2]
      exact isParallel_raises (by omega) e4 f4
    exact ⟨s, by simp [Plane.projectLine, hs]⟩

/-- **C99**, two planes of different dimensions (with the default tolerance). -/
theorem C99_planes [NumpyExt K] {a b c d : List K} {P Q : Plane K} (hP : Plane.new a b = .ok P) (hQ : Plane.new c d = .ok Q)
    (h : Plane.dimension P ≠ Plane.dimension Q) :
    RaisesValueError (Plane.isClose Tol.default P (.plane Q)) ∧
    RaisesValueError (Plane.intersectPlane Tol.default P Q) := by
  obtain ⟨e1, e2, e3, e0, e4⟩ := plane_new_dims hP
  obtain ⟨f1, f2, f3, f0, f4⟩ := plane_new_dims hQ
  unfold Plane.dimension at h
  rw [e1, f1] at h
  obtain ⟨s, hp⟩ : RaisesValueError (Vec.isParallel Tol.default P.normal Q.normal) := by
    rw [e2, f2]
    exact isParallel_raises (by omega) e4 f4
  refine ⟨.of_only (by ov) fun r hr => ?_, ⟨s, by simp [Plane.intersectPlane, hp]⟩⟩
  simp only [Plane.isClose, bind_ok_iff] at hr
  obtain ⟨-, -, x, h2, -⟩ := hr
  rw [hp] at h2
  cases h2

/-! ### Circles, spheres and cylinders -/

theorem baseSphere_raises {c p : List K} (r : K) (h : p.length ≠ c.length) (h1 : p.length ≠ 1) (hc : c.length ≠ 1) :
    RaisesValueError (baseDistancePoint c r p) ∧ RaisesValueError (baseProjectPoint c r p) := by
  obtain ⟨⟨s, hs⟩, ⟨s', hs'⟩, -⟩ := C99_points (Ne.symm h) hc h1
  refine ⟨⟨s', by simp [baseDistancePoint, hs']⟩, ?_⟩
  unfold baseProjectPoint
  split
  · exact ⟨_, rfl⟩
  · exact ⟨s, by simp [hs]⟩

/-- **C99**, circles and spheres: points of another dimension (other than 1), and lines. -/
theorem C99_circle_sphere :
    (∀ {a : List K} {r : K} {c : Circle K} (p : List K), Circle.new a r = .ok c → p.length ≠ 2 → p.length ≠ 1 →
      RaisesValueError (Circle.distancePoint c p) ∧ RaisesValueError (Circle.projectPoint c p) ∧
      ∀ t, RaisesValueError (Circle.containsPoint t c p)) ∧
    (∀ {a : List K} {r : K} {s : Sphere K} (p : List K), Sphere.new a r = .ok s → p.length ≠ 3 → p.length ≠ 1 →
      RaisesValueError (Sphere.distancePoint s p) ∧ RaisesValueError (Sphere.projectPoint s p) ∧
      ∀ t, RaisesValueError (Sphere.containsPoint t s p)) ∧
    (∀ {a b d : List K} {r : K} {c : Circle K} {l : Line K}, Circle.new a r = .ok c → Line.new b d = .ok l →
      2 < Line.dimension l → RaisesValueError (Circle.intersectLine c l)) ∧
    (∀ {a b d : List K} {r : K} {s : Sphere K} {l : Line K}, Sphere.new a r = .ok s → Line.new b d = .ok l →
      Line.dimension l ≠ 3 → RaisesValueError (Sphere.intersectLine s l)) := by
  have hcirc : ∀ {a : List K} {r : K} {c : Circle K}, Circle.new a r = .ok c → c.point.length = 2 := by
    intro a r c h
    simp only [Circle.new, bind_ok_iff] at h
    obtain ⟨⟨p, q⟩, -, h⟩ := h
    dsimp only at h
    split at h
    · simp at h
    cases h
    rename_i hn
    exact not_not.mp hn
  have hsph : ∀ {a : List K} {r : K} {c : Sphere K}, Sphere.new a r = .ok c → c.point.length = 3 := by
    intro a r c h
    simp only [Sphere.new, bind_ok_iff] at h
    obtain ⟨⟨p, q⟩, -, h⟩ := h
    dsimp only at h
    split at h
    · simp at h
    cases h
    rename_i hn
    exact not_not.mp hn
  refine ⟨fun {a r c} p hc h2 h1 => ?_, fun {a r s} p hs h3 h1 => ?_, fun {a b d r c l} hc hl h => ?_,
    fun {a b d r s l} hs hl h => ?_⟩
  · have e := hcirc hc
    obtain ⟨⟨x, hx⟩, hy⟩ := baseSphere_raises (c := c.point) (p := p) c.radius (by omega) h1 (by omega)
    exact ⟨⟨x, hx⟩, hy, fun t => ⟨x, by simp [Circle.containsPoint, containsPointFn, Circle.distancePoint, hx]⟩⟩
  · have e := hsph hs
    obtain ⟨⟨x, hx⟩, hy⟩ := baseSphere_raises (c := s.point) (p := p) s.radius (by omega) h1 (by omega)
    exact ⟨⟨x, hx⟩, hy, fun t => ⟨x, by simp [Sphere.containsPoint, containsPointFn, Sphere.distancePoint, hx]⟩⟩
  · have e := hcirc hc
    unfold Line.dimension at h
    refine .of_only (by ov) fun r hr => ?_
    simp only [Circle.intersectLine, bind_ok_iff] at hr
    obtain ⟨u, -, p2, -, t1, h1, -⟩ := hr
    rcases broadcast2_ok_len h1 with h3 | h3 | h3 <;> omega
  · have e := hsph hs
    obtain ⟨f1, f2, f3, f0, f4⟩ := line_new_dims hl
    unfold Line.dimension at h
    refine .of_only (by ov) fun r hr => ?_
    simp only [Sphere.intersectLine, bind_ok_iff] at hr
    obtain ⟨v, hv, u, hu, x, hx, -⟩ := hr
    have h2 := dot_ok_len hx
    rw [unit_ok_len hu, f2, ← f3] at h2
    rw [f1] at h
    obtain ⟨h3 | h3 | h3, -⟩ := fromPoints_ok_len hv <;> rw [f1] at h3 <;> omega

/-- **C99**, cylinders: a point that is not 3D (nor 1D), and a line that is not 3D. -/
theorem C99_cylinder {a b : List K} {r : K} {c : Cylinder K} (hc : Cylinder.new a b r = .ok c) :
    (∀ p, p.length ≠ 3 → p.length ≠ 1 → RaisesValueError (Cylinder.isPointWithin c p)) ∧
    (∀ l n i, Line.dimension l ≠ 3 → RaisesValueError (Cylinder.intersectLine c l n i)) := by
  have e : c.point.length = 3 ∧ c.vector.length = 3 := by
    simp only [Cylinder.new, bind_ok_iff] at hc
    obtain ⟨p, hp, v, hv, hc⟩ := hc
    split at hc
    · simp at hc
    split at hc
    · simp at hc
    simp only [bind_ok_iff] at hc
    obtain ⟨z, -, hc⟩ := hc
    split at hc
    · simp at hc
    split at hc
    · simp at hc
    cases hc
    dsimp only
    exact ⟨by omega, by omega⟩
  refine ⟨fun p h3 h1 => ?_, fun l n i h => ⟨_, by rw [Cylinder.intersectLine, if_pos h]⟩⟩
  rw [Cylinder.isPointWithin]
  cases hl : Line.new c.point c.vector with
  | error x =>
    obtain ⟨s, rfl⟩ := (show OnlyValueError (Line.new c.point c.vector) by ov) x hl
    exact ⟨s, rfl⟩
  | ok l =>
    have hdim : Line.dimension l = 3 := by rw [Line.dimension, (line_new_dims hl).1, e.1]
    rw [ok_bind]
    exact (C99_line_point hl (by omega) h1).2.1.bind _

/-! ### Ragged lists of points -/

theorem newPoints_ok_rows {ps qs : List (List K)} (h : newPoints ps = .ok qs) :
    ps ≠ [] ∧ ∀ p ∈ ps, ∀ q ∈ ps, p.length = q.length := by
  unfold newPoints at h
  split at h
  · simp at h
  rename_i r rs
  split at h
  · simp at h
  rename_i hn
  refine checkRows_ok (u := ()) ?_
  simp only [Bool.not_eq_true', Bool.not_eq_false] at hn
  simp only [checkRows]
  rw [if_pos hn]

/-- **C99**, lists of points: an empty list, or a list of points of different dimensions, raises `ValueError` in every
method that takes a list of points. -/
theorem C99_ragged [NumpyExt K] {ps : List (List K)} (h : ps = [] ∨ ∃ p ∈ ps, ∃ q ∈ ps, p.length ≠ q.length) :
    RaisesValueError (newPoints ps) ∧
    (∀ l : Line K, RaisesValueError (Line.projectPoints l ps) ∧ RaisesValueError (Line.distancePoints l ps) ∧
      RaisesValueError (Line.sumSquares l ps) ∧ RaisesValueError (Line.transformPoints l ps)) ∧
    (∀ P : Plane K, RaisesValueError (Plane.projectPoints P ps) ∧ RaisesValueError (Plane.distancePoints P ps) ∧
      RaisesValueError (Plane.distancePointsSigned P ps) ∧ RaisesValueError (Plane.sumSquares P ps)) ∧
    (∀ o b, RaisesValueError (transformCoordinates ps o b) ∧ RaisesValueError (transformCoordinates b o ps)) ∧
    (∀ t b, RaisesValueError (Line.bestFit ps t b) ∧ RaisesValueError (Plane.bestFit ps t b)) ∧
    RaisesValueError (Circle.bestFit ps) ∧ RaisesValueError (Sphere.bestFit ps) ∧
    RaisesValueError (Cylinder.bestFit ps) ∧ RaisesValueError (Measurement.areaSigned ps) := by
  have hc : ∀ u, checkRows ps ≠ .ok u := by
    intro u hu
    obtain ⟨h1, h2⟩ := checkRows_ok hu
    rcases h with rfl | ⟨p, hp, q, hq, hne⟩
    · exact h1 rfl
    · exact hne (h2 p hp q hq)
  have hn : ∀ u, newPoints ps ≠ .ok u := by
    intro u hu
    obtain ⟨h1, h2⟩ := newPoints_ok_rows hu
    rcases h with rfl | ⟨p, hp, q, hq, hne⟩
    · exact h1 rfl
    · exact hne (h2 p hp q hq)
  obtain ⟨m, hm⟩ : RaisesValueError (checkRows ps) := .of_only (by ov) hc
  obtain ⟨k, hk⟩ : RaisesValueError (newPoints ps) := .of_only (by ov) hn
  refine ⟨⟨k, hk⟩, fun l => ⟨⟨m, ?_⟩, ⟨m, ?_⟩, ⟨m, ?_⟩, .of_only (by ov) fun r hr => ?_⟩,
    fun P => ⟨⟨m, ?_⟩, ⟨m, ?_⟩, ⟨m, ?_⟩, ⟨m, ?_⟩⟩, fun o b => ⟨⟨m, ?_⟩, .of_only (by ov) fun r hr => ?_⟩,
    fun t b => ⟨⟨k, ?_⟩, ⟨k, ?_⟩⟩, ⟨k, ?_⟩, ⟨k, ?_⟩, ⟨k, ?_⟩, ⟨k, ?_⟩⟩
  · rw [Line.projectPoints, hm]; rfl
  · rw [Line.distancePoints, Line.projectPoints, hm]; rfl
  · rw [Line.sumSquares, sumSquaresFn, hm]; rfl
  · simp only [Line.transformPoints, transformCoordinates, hm, bind_ok_iff] at hr
    obtain ⟨u, -, c, ⟨a, ha, -⟩, -⟩ := hr
    cases ha
  · rw [Plane.projectPoints, hm]; rfl
  · rw [Plane.distancePoints, Plane.distancePointsSigned, hm]; rfl
  · rw [Plane.distancePointsSigned, hm]; rfl
  · rw [Plane.sumSquares, sumSquaresFn, hm]; rfl
  · rw [transformCoordinates, hm]; rfl
  · simp only [transformCoordinates, bind_ok_iff] at hr
    obtain ⟨u, -, c, hc', -⟩ := hr
    exact hc c hc'
  · rw [Line.bestFit, hk]; rfl
  · rw [Plane.bestFit, hk]; rfl
  · rw [Circle.bestFit, hk]; rfl
  · rw [Sphere.bestFit, hk]; rfl
  · exact congrArg (· >>= _) hk
  · rw [Measurement.areaSigned, hk]; rfl

/-! ### Arrays of length one are broadcast -/

omit [PyNum K] in
theorem broadcast2_left (f : K → K → K) (x : K) (b : List K) (hb : b.length ≠ 0) :
    broadcast2 f [x] b = broadcast2 f (List.replicate b.length x) b := by
  have key : List.zipWith f (List.replicate b.length x) b = b.map (f x) := by
    clear hb
    induction b with
    | nil => rfl
    | cons y ys ih => simp [List.replicate_succ, ih]
  unfold broadcast2
  rw [if_pos (List.length_replicate : (List.replicate b.length x).length = b.length), key]
  split
  · rename_i h
    match b, h with
    | [y], _ => rfl
  · rfl

omit [PyNum K] in
theorem broadcast2_right (f : K → K → K) (x : K) (b : List K) (hb : b.length ≠ 0) :
    broadcast2 f b [x] = broadcast2 f b (List.replicate b.length x) := by
  have key : List.zipWith f b (List.replicate b.length x) = b.map (fun y => f y x) := by
    clear hb
    induction b with
    | nil => rfl
    | cons y ys ih => simp [List.replicate_succ, ih]
  unfold broadcast2
  rw [if_pos (List.length_replicate : (List.replicate b.length x).length = b.length).symm, key]
  split
  · rename_i h
    match b, h with
    | [y], _ => rfl
  · rename_i h
    match b, h, hb with
    | [y], h, _ => exact absurd rfl h
    | _ :: _ :: _, _, _ => rfl

theorem fromPoints_left (x : K) (b : List K) (hb : b.length ≠ 0) :
    Vec.fromPoints [x] b = Vec.fromPoints (List.replicate b.length x) b := by
  rw [Vec.fromPoints, Vec.fromPoints, vsub, vsub, broadcast2_right _ _ _ hb]

theorem fromPoints_right (x : K) (b : List K) (hb : b.length ≠ 0) :
    Vec.fromPoints b [x] = Vec.fromPoints b (List.replicate b.length x) := by
  rw [Vec.fromPoints, Vec.fromPoints, vsub, vsub, broadcast2_left _ _ _ hb]

theorem new1D_replicate (x : K) {n : ℕ} (hn : n ≠ 0) :
    new1D (List.replicate n x) = if PyNum.isFinite x then .ok (List.replicate n x)
      else .error (.valueError "The values must all be finite.") := by
  obtain ⟨k, rfl⟩ := Nat.exists_eq_succ_of_ne_zero hn
  have : (List.replicate (k + 1) x).all PyNum.isFinite = PyNum.isFinite x := by
    cases h : PyNum.isFinite x with
    | true => simp [h]
    | false => simp [List.replicate_succ, h]
  simp only [new1D, this]
  cases PyNum.isFinite x <;> simp

theorem bind_congr_ok {α β : Type} {r : Res α} {f g : α → Res β} (h : ∀ a, r = .ok a → f a = g a) :
    (r >>= f) = (r >>= g) := by
  cases r with
  | error e => rfl
  | ok a => exact h a rfl

/-- **C99**, broadcasting: a point `[x]` of dimension 1 is silently treated as the point `[x, x, ..., x]` of the dimension of
the other operand. -/
theorem C99_broadcast (x : K) :
    (∀ b : List K, b.length ≠ 0 →
      Vec.fromPoints [x] b = Vec.fromPoints (List.replicate b.length x) b ∧
      Vec.fromPoints b [x] = Vec.fromPoints b (List.replicate b.length x) ∧
      Pt.distancePoint [x] b = Pt.distancePoint (List.replicate b.length x) b ∧
      Pt.distancePoint b [x] = Pt.distancePoint b (List.replicate b.length x)) ∧
    (∀ {a b : List K} {l : Line K}, Line.new a b = .ok l →
      Line.projectPoint l [x] = Line.projectPoint l (List.replicate (Line.dimension l) x) ∧
      Line.distancePoint l [x] = Line.distancePoint l (List.replicate (Line.dimension l) x) ∧
      Line.sidePoint l [x] = Line.sidePoint l (List.replicate (Line.dimension l) x) ∧
      ∀ t, Line.containsPoint t l [x] = Line.containsPoint t l (List.replicate (Line.dimension l) x)) ∧
    (∀ {a b : List K} {P : Plane K}, Plane.new a b = .ok P →
      Plane.projectPoint P [x] = Plane.projectPoint P (List.replicate (Plane.dimension P) x) ∧
      Plane.distancePointSigned P [x] = Plane.distancePointSigned P (List.replicate (Plane.dimension P) x) ∧
      Plane.distancePoint P [x] = Plane.distancePoint P (List.replicate (Plane.dimension P) x) ∧
      Plane.sidePoint P [x] = Plane.sidePoint P (List.replicate (Plane.dimension P) x) ∧
      ∀ t, Plane.containsPoint t P [x] = Plane.containsPoint t P (List.replicate (Plane.dimension P) x)) := by
  have hd : ∀ b : List K, b.length ≠ 0 →
      Pt.distancePoint b [x] = Pt.distancePoint b (List.replicate b.length x) := fun b hb => by
    rw [Pt.distancePoint, Pt.distancePoint, fromPoints_right x b hb]
  refine ⟨fun b hb => ⟨fromPoints_left x b hb, fromPoints_right x b hb, ?_, hd b hb⟩, fun {a b l} hl => ?_,
    fun {a b P} hP => ?_⟩
  · rw [Pt.distancePoint, Pt.distancePoint, fromPoints_left x b hb]
  · obtain ⟨e1, e2, e3, e0, -⟩ := line_new_dims hl
    have h0 : l.point.length ≠ 0 := by rw [e1]; exact e0
    have hp : Line.projectPoint l [x] = Line.projectPoint l (List.replicate l.point.length x) := by
      rw [Line.projectPoint, Line.projectPoint, fromPoints_right x _ h0]
    have hdp : Line.distancePoint l [x] = Line.distancePoint l (List.replicate l.point.length x) := by
      rw [Line.distancePoint, Line.distancePoint, hp]
      refine bind_congr_ok fun q hq => ?_
      have hql : q.length = l.point.length := by
        simp only [Line.projectPoint, bind_ok_iff] at hq
        obtain ⟨v, -, w, hw, hq⟩ := hq
        have h2 := (projectVector_ok_len hw).2
        rcases broadcast2_ok_len hq with h3 | h3 | h3 <;> rw [e1, e2] at * <;> omega
      refine bind_congr_ok fun q' hq' => ?_
      have hqq : q' = q := by
        unfold wrapped at hq'
        split at hq'
        · exact (Except.ok.inj hq').symm
        · cases hq'
      rw [← hql, hqq]
      exact hd q (by omega)
    refine ⟨hp, hdp, ?_, fun t => ?_⟩
    · rw [Line.sidePoint, Line.sidePoint, Line.dimension, fromPoints_right x _ h0]
    · rw [Line.containsPoint, Line.containsPoint, containsPointFn, containsPointFn, Line.dimension, hdp]
  · obtain ⟨e1, e2, e3, e0, -⟩ := plane_new_dims hP
    have h0 : P.point.length ≠ 0 := by rw [e1]; exact e0
    have hs : Plane.distancePointSigned P [x] = Plane.distancePointSigned P (List.replicate P.point.length x) := by
      rw [Plane.distancePointSigned, Plane.distancePointSigned, fromPoints_right x _ h0]
    have hdp : Plane.distancePoint P [x] = Plane.distancePoint P (List.replicate P.point.length x) := by
      rw [Plane.distancePoint, Plane.distancePoint, hs]
    refine ⟨?_, hs, hdp, ?_, fun t => ?_⟩
    · rw [Plane.projectPoint, Plane.projectPoint, Plane.dimension, fromPoints_left x _ h0]
      refine bind_congr_ok fun v hv => bind_congr_ok fun w hw => ?_
      have h2 := (projectVector_ok_len hw).2
      have hw' : w.length = P.point.length := by rw [h2, e1, e2, e3]
      rw [new1D_replicate x h0, show new1D [x] = _ from new1D_replicate x (n := 1) one_ne_zero]
      split
      · rw [ok_bind, ok_bind, ← hw']
        exact broadcast2_left _ _ _ (by omega)
      · rfl
    · rw [Plane.sidePoint, Plane.sidePoint, Plane.dimension, hs]
    · rw [Plane.containsPoint, Plane.containsPoint, containsPointFn, containsPointFn, Plane.dimension, hdp]

/-! ### A one-dimensional line meets a circle -/

theorem unit_one (v : ℝ) (hv : v ≠ 0) : Vec.unit [v] = .ok [v / |v|] := by
  have h : Vec.norm [v] = |v| := by
    simp [Vec.norm, normv, dotv_real, sumL_real, Real.sqrt_mul_self_eq_abs]
  simp [Vec.unit, h, hv, sdiv, zero]

theorem diag_eq {cx cy p u R w : ℝ} (hu : u * u = 1)
    (hw : w = (p - cx) * (p + u - cy) - (p + u - cx) * (p - cy)) :
    (w * u + R) / (u * u + u * u) + cx = (-w * u + R) / (u * u + u * u) + cy := by
  rw [hw, hu]
  linear_combination (cy - cx) * hu

/-- **C99**, `circle.intersect_line` with a one-dimensional line does not raise for the dimension: the line `[p] + t [v]` is
taken for the diagonal of the plane, so every point it returns has two equal coordinates. -/
theorem C99_circle_line_1d {a b d : List ℝ} {r : ℝ} {c : Circle ℝ} {l : Line ℝ} (hc : Circle.new a r = .ok c)
    (hl : Line.new b d = .ok l) (h1 : Line.dimension l = 1) {x y : List ℝ}
    (h : Circle.intersectLine c l = .ok (x, y)) : ∃ s t : ℝ, x = [s, s] ∧ y = [t, t] := by
  obtain ⟨e1, e2, e3, e0, e4⟩ := line_new_dims hl
  have h2 : c.point.length = 2 := by
    simp only [Circle.new, bind_ok_iff] at hc
    obtain ⟨⟨p, q⟩, -, hc⟩ := hc
    dsimp only at hc
    split at hc
    · simp at hc
    cases hc
    rename_i hn
    exact not_not.mp hn
  rw [Line.dimension] at h1
  obtain ⟨ctr, R⟩ := c
  obtain ⟨lp, ld⟩ := l
  dsimp only at e1 e2 h1 h2
  subst e1 e2
  match ctr, lp, ld, h1, h2, e3, e4 with
  | [cx, cy], [p], [v], _, _, _, e4 =>
  have hv : v ≠ 0 := by
    rintro rfl
    simp [Vec.isZero, dot, dotv_real, sumL_real, isclose, Tol.default, zero] at e4
    norm_num at e4
  obtain ⟨u, hu⟩ : ∃ u, u = v / |v| := ⟨_, rfl⟩
  have hu1 : u * u = 1 := by rw [hu, div_mul_div_comm, abs_mul_abs_self, div_self (mul_ne_zero hv hv)]
  simp only [Circle.intersectLine, unit_one v hv, ok_bind, ← hu, vadd, vsub, broadcast2, List.length_cons, List.length_nil,
    if_true, List.zipWith, add_real, sub_real, mul_real, div_real] at h
  simp [mathSqrt, new1D, sq] at h
  split at h
  · simp at h
  rw [ok_bind] at h
  simp only [Except.ok.injEq, Prod.mk.injEq] at h
  obtain ⟨rfl, rfl⟩ := h
  obtain ⟨root, hr⟩ : ∃ root, root = √(R * R * (u * u + u * u) - ((p - cx) * (p + u - cy) - (p + u - cx) * (p - cy)) *
    ((p - cx) * (p + u - cy) - (p + u - cx) * (p - cy))) := ⟨_, rfl⟩
  rw [← hr]
  obtain ⟨w, hw⟩ : ∃ w, w = (p - cx) * (p + u - cy) - (p + u - cx) * (p - cy) := ⟨_, rfl⟩
  have hw' : (p + u - cx) * (p - cy) - (p - cx) * (p + u - cy) = -w := by rw [hw]; ring
  have s1 : (if u < 0 then u * root else -(u * root)) = -(|u| * root) := by
    split
    · rename_i h3; rw [abs_of_neg h3]; ring
    · rename_i h3; rw [abs_of_nonneg (not_lt.mp h3)]
  have s2 : (if u < 0 then -(u * root) else u * root) = |u| * root := by
    split
    · rename_i h3; rw [abs_of_neg h3]; ring
    · rename_i h3; rw [abs_of_nonneg (not_lt.mp h3)]
  rw [hw', ← hw, s1, s2]
  exact ⟨_, _, by rw [diag_eq hu1 hw], by rw [diag_eq hu1 hw]⟩

/-! ### The hypotheses can be met -/

theorem line_new_int (p v : ℝ) (hv : v = 1 ∨ v = 2) : Line.new [p] [v] = .ok ⟨[p], [v]⟩ := by
  rcases hv with rfl | rfl <;>
  · simp [Line.new, newLinePlane, new1D, Vec.isZero, dot, dotv_real, sumL_real, isclose, Tol.default, zero]
    norm_num

theorem line_new_plane (a b : ℝ) : Line.new [a, b] [1, 0] = .ok ⟨[a, b], [1, 0]⟩ ∧
    Plane.new [a, b] [1, 0] = .ok ⟨[a, b], [1, 0]⟩ := by
  constructor <;>
  · simp [Line.new, Plane.new, newLinePlane, new1D, Vec.isZero, dot, dotv_real, sumL_real, isclose, Tol.default, zero]
    norm_num

/-- Vectors of lengths 2 and 3, a planar line with a spatial point, a planar line with a one-dimensional one, a plane with a
line. -/
example [NumpyExt ℝ] : RaisesValueError (Vec.projectVector [(1 : ℝ), 0] [1, 0, 0]) ∧
    RaisesValueError (Vec.fromPoints [(1 : ℝ), 0] [1, 0, 0]) ∧
    RaisesValueError (Line.projectPoint ⟨[(0 : ℝ), 0], [1, 0]⟩ [1, 2, 3]) ∧
    RaisesValueError (Line.distanceLine ⟨[(0 : ℝ), 0], [1, 0]⟩ ⟨[(0 : ℝ)], [1]⟩) ∧
    RaisesValueError (Plane.intersectLine Tol.default ⟨[(0 : ℝ), 0], [1, 0]⟩ ⟨[(0 : ℝ)], [1]⟩) :=
  ⟨(C99_dot (by simp)).2.2.1, (C99_points (by simp) (by simp) (by simp)).1,
    (C99_line_point (line_new_plane 0 0).1 (by simp [Line.dimension]) (by simp)).1,
    (C99_lines (line_new_plane 0 0).1 (line_new_int 0 1 (Or.inl rfl)) (by simp [Line.dimension])).2.2.2.2.1,
    (C99_plane_line (line_new_plane 0 0).2 (line_new_int 0 1 (Or.inl rfl))
      (by simp [Line.dimension, Plane.dimension])).1 _⟩

/-- `Circle([0, 0], 1).intersect_line(Line([0], [1]))` returns: the points `±(√2/2, √2/2)`. -/
example : ∃ x y, Circle.intersectLine (⟨[0, 0], 1⟩ : Circle ℝ) ⟨[0], [1]⟩ = .ok (x, y) := by
  refine ⟨[-√2 / 2, -√2 / 2], [√2 / 2, √2 / 2], ?_⟩
  simp [Circle.intersectLine, unit_one 1 one_ne_zero, vadd, vsub, broadcast2, mathSqrt, new1D, sq, zero]
  norm_num

/-- `Line([0, 0], [1, 0]).distance_point([3])` is the distance to `[3, 3]`. -/
example : Line.distancePoint (⟨[0, 0], [1, 0]⟩ : Line ℝ) [3] = Line.distancePoint ⟨[0, 0], [1, 0]⟩ [3, 3] :=
  ((C99_broadcast (3 : ℝ)).2.1 (line_new_plane 0 0).1).2.1

end SkSpatial
