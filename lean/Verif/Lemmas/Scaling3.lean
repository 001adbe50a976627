import Verif.Lemmas.Scaling2
/-! # Exact scaling: intersections, circles, spheres, cylinders, triangles, segments, measurement -/

namespace SkSpatial
namespace Scaling
open StdRounding

variable {A : Arith} {e f g : ℝ} {n : ℕ} {s : Fin n → ℝ} {L L' M M' : Line ℝ} {P P' Q Q' : Plane ℝ} {x x' : List ℝ} {t t' : Tol ℝ}

theorem ofInt_sr (k : ℤ) : SR 1 (@PyNum.ofInt ℝ (rounded A) k) (@PyNum.ofInt ℝ (rounded A) k) := one_sr _

theorem mul1_sr (h1 : Sc A 1) (he : Sc A e) {x y y' : ℝ} (hy : SR e y y') :
    SR e (@PyNum.mul ℝ (rounded A) x y) (@PyNum.mul ℝ (rounded A) x y') :=
  (mul_sr h1 he (one_sr x) hy).cast (one_mul e)

theorem mul1_sr' (h1 : Sc A 1) (he : Sc A e) {x y y' : ℝ} (hy : SR e y y') :
    SR e (@PyNum.mul ℝ (rounded A) y x) (@PyNum.mul ℝ (rounded A) y' x) :=
  (mul_sr he h1 hy (one_sr x)).cast (mul_one e)

/-- Two lines in the plane or in space. -/
theorem lineIntersect_vr (ext : NumpyExt ℝ) (h1 : Sc A 1) (hs : Sg A s) (he : Sc A e) (hf : Sc A f) (h0' : 0 < f)
    (hg : Sc A g) (h0'' : 0 < g) (ht : TR0 t t') (hL : LR s e f L L') (hM : LR s e g M M') :
    SameOutcome (VR s e) (@Line.intersectLine ℝ (rounded A) ext L M false t) (@Line.intersectLine ℝ (rounded A) ext L' M' false t') := by
  have l1 := hL.1.length
  have l2 := hM.1.length
  simp only [Line.intersectLine, Line.dimension, l1.1, l1.2, l2.1, l2.2, ne_eq, not_true_eq_false, if_false]
  by_cases hn : n > 3
  · simp only [hn, or_self, if_true]; exact so_err
  simp only [hn, or_self, if_false]
  refine so_bind (isParallel_vr hs h1 hf h0' hg h0'' ht hL.2 hM.2) fun _ _ h => so_ite h so_err ?_
  simp only [Bool.false_eq_true, if_false, pure_ok, ok_bind]
  have hp := pad_sg h1 hs
  have hd := det_sc hp
  refine so_bind (fromPoints_vr hs he hL.1 hM.1) fun _ _ hab => so_bind (cross_vr h1 hs hf hg hL.2 hM.2) fun _ _ hperp =>
    so_bind (cross_vr h1 hs he hg hab hM.2) fun _ _ habx =>
    so_bind (dot_vr hp (hd.mul (he.mul hg)) (hd.mul (hf.mul hg)) habx hperp) fun _ _ hnum => vadd_vr hs he hL.1 ?_
  have hN := sq_sr (A := A) (hf.mul hg) (norm_vr_abs hp (hd.mul (hf.mul hg)) (hf.mul hg) (mul_pos h0' h0'')
    (det_mul_abs hp (mul_pos h0' h0'')) hperp)
  refine (smul_vr hs (((hd.mul (he.mul hg)).mul (hd.mul (hf.mul hg))).div ((hf.mul hg).mul (hf.mul hg))) hf
    (div_sr ((hd.mul (he.mul hg)).mul (hd.mul (hf.mul hg))) ((hf.mul hg).mul (hf.mul hg)) hnum hN) hL.2).cast ?_
  have h2 := det_sq hp
  have := hf.ne
  have := hg.ne
  have := hd.ne
  rw [show det (pad s) * (e * g) * (det (pad s) * (f * g)) = (det (pad s) * det (pad s)) * (e * g * (f * g)) by ring, h2]
  field_simp

/-! ### Circles and spheres -/

theorem arrIsEqual_vr (hs : Sg A s) (he : Sc A e) {a a' b b' : List ℝ} (ha : VR s e a a') (hb : VR s e b b') :
    @arrIsEqual ℝ (rounded A) a b = @arrIsEqual ℝ (rounded A) a' b' := by
  obtain ⟨x, rfl, rfl⟩ := ha
  obtain ⟨y, rfl, rfl⟩ := hb
  have key : ∀ u v : E n, @arrIsEqual ℝ (rounded A) (arr u) (arr v) = decide (∀ i, u i = v i) := fun u v => by
    rw [Bool.eq_iff_iff]
    simp only [arrIsEqual, length_arr, decide_true, Bool.true_and, List.all_eq_true, eq_rd, decide_eq_true_eq]
    constructor
    · intro h i
      have := h (u i, v i) (by
        rw [List.mem_iff_getElem]
        exact ⟨i, by simp [arr], by simp [arr]⟩)
      exact this
    · rintro h ⟨p, q⟩ hpq
      obtain ⟨i, hi, hp⟩ := List.mem_iff_getElem.mp hpq
      simp only [arr, List.getElem_zip, List.getElem_ofFn, Prod.mk.injEq] at hp
      rw [← hp.1, ← hp.2]
      exact h _
  rw [key, key, decide_eq_decide]
  refine forall_congr' fun i => ?_
  show _ ↔ e * (s i * x i) = e * (s i * y i)
  rw [mul_right_inj' he.ne, mul_right_inj' (hs.sc i).ne]

theorem baseNew_vr (h0 : 0 < e) {p p' : List ℝ} {r r' : ℝ} (hp : VR s e p p') (hr : SR e r r') :
    SameOutcome (fun x y => VR s e x.1 y.1 ∧ SR e x.2 y.2) (@newBaseSphere ℝ (rounded A) p r) (@newBaseSphere ℝ (rounded A) p' r') :=
  so_ite (le_sr h0 hr zero_sr) so_err (so_bind (new1D_vr hp) fun _ _ h => so_ok ⟨h, hr⟩)

theorem baseDistance_vr (hs : Sg A s) (he : Sc A e) (h0 : 0 < e) {p p' : List ℝ} {r r' : ℝ} (hp : VR s e p p') (hr : SR e r r') (hx : VR s e x x') :
    SameOutcome (SR e) (@baseDistancePoint ℝ (rounded A) p r x) (@baseDistancePoint ℝ (rounded A) p' r' x') :=
  so_bind (distancePoint_vr hs he h0 hp hx) fun _ _ h => so_ok (abs_sr h0 (sub_sr he h hr))

theorem baseProject_vr (h1 : Sc A 1) (hs : Sg A s) (he : Sc A e) (h0 : 0 < e) {p p' : List ℝ} {r r' : ℝ} (hp : VR s e p p') (hr : SR e r r') (hx : VR s e x x') :
    SameOutcome (VR s e) (@baseProjectPoint ℝ (rounded A) p r x) (@baseProjectPoint ℝ (rounded A) p' r' x') :=
  so_ite (arrIsEqual_vr hs he hp hx) so_err <| so_bind (fromPoints_vr hs he hp hx) fun _ _ h =>
    so_bind (unit_vr hs he h0 h) fun _ _ hu => vadd_vr hs he hp ((smul_vr hs he h1 hr hu).cast (mul_one e))

theorem mathSqrt_sr (he : Sc A e) (h0 : 0 < e) {x y : ℝ} (h : SR (e * e) x y) :
    SameOutcome (SR e) (@mathSqrt ℝ (rounded A) x) (@mathSqrt ℝ (rounded A) y) :=
  so_ite (lt_sr (mul_pos h0 h0) h zero_sr) so_err (so_ok (sqrt_sr he h0 h))

/-- The second sphere is the first one, scaled. -/
def SpR (s : Fin n → ℝ) (e : ℝ) (C D : Sphere ℝ) : Prop := VR s e C.point D.point ∧ SR e C.radius D.radius
/-- The second circle is the first one, scaled. -/
def CiR (s : Fin n → ℝ) (e : ℝ) (C D : Circle ℝ) : Prop := VR s e C.point D.point ∧ SR e C.radius D.radius

theorem sphereNew_vr (h0 : 0 < e) {p p' : List ℝ} {r r' : ℝ} (hp : VR s e p p') (hr : SR e r r') :
    SameOutcome (SpR s e) (@Sphere.new ℝ (rounded A) p r) (@Sphere.new ℝ (rounded A) p' r') := by
  refine so_bind (baseNew_vr h0 hp hr) ?_
  rintro ⟨q, a⟩ ⟨q', a'⟩ ⟨hq, ha⟩
  have := VR.length hq
  simp only at this
  simp only [this.1, this.2]
  split
  · exact so_err
  · exact so_ok ⟨hq, ha⟩

theorem circleNew_vr (h0 : 0 < e) {p p' : List ℝ} {r r' : ℝ} (hp : VR s e p p') (hr : SR e r r') :
    SameOutcome (CiR s e) (@Circle.new ℝ (rounded A) p r) (@Circle.new ℝ (rounded A) p' r') := by
  refine so_bind (baseNew_vr h0 hp hr) ?_
  rintro ⟨q, a⟩ ⟨q', a'⟩ ⟨hq, ha⟩
  have := VR.length hq
  simp only at this
  simp only [this.1, this.2]
  split
  · exact so_err
  · exact so_ok ⟨hq, ha⟩

/-- Pairs of points, in the same order. -/
def PairR (s : Fin n → ℝ) (e : ℝ) (a b : List ℝ × List ℝ) : Prop := VR s e a.1 b.1 ∧ VR s e a.2 b.2
/-- Pairs of points, in any order. -/
def PairR' (s : Fin n → ℝ) (e : ℝ) (a b : List ℝ × List ℝ) : Prop := PairR s e a b ∨ PairR s e a b.swap

theorem sphereLine_vr (h1 : Sc A 1) (hs : Sg A s) (he : Sc A e) (h0 : 0 < e) (hf : Sc A f) (h0' : 0 < f) {C C' : Sphere ℝ}
    (hC : SpR s e C C') (hL : LR s e f L L') :
    SameOutcome (PairR s e) (@Sphere.intersectLine ℝ (rounded A) C L) (@Sphere.intersectLine ℝ (rounded A) C' L') := by
  refine so_bind (fromPoints_vr hs he hC.1 hL.1) fun _ _ hv => so_bind (unit_vr hs hf h0' hL.2) fun _ _ hu =>
    so_bind (dot_vr hs h1 he hu hv) fun _ _ hd => ?_
  have hd := hd.cast (one_mul e)
  have hD := sub_sr (he.mul he) (sq_sr he hd) (sub_sr (he.mul he) (sq_sr he (norm_vr hs he h0 hv)) (sq_sr he hC.2))
  refine so_ite (lt_sr (mul_pos h0 h0) hD zero_sr) so_err (so_bind (mathSqrt_sr he h0 hD) fun _ _ hr => ?_)
  have ht : ∀ k : ℤ, _ := fun k => add_sr he (neg_sr (A := A) hd) (mul1_sr (x := @PyNum.ofInt ℝ (rounded A) k) h1 he hr)
  exact so_bind (vadd_vr hs he hL.1 ((smul_vr hs he h1 (ht (-1)) hu).cast (mul_one e))) fun _ _ ha =>
    so_bind (vadd_vr hs he hL.1 ((smul_vr hs he h1 (ht 1) hu).cast (mul_one e))) fun _ _ hb =>
    so_bind (new1D_vr ha) fun _ _ ha => so_bind (new1D_vr hb) fun _ _ hb => so_ok ⟨ha, hb⟩

/-! ### Cylinders -/

/-- The second cylinder is the first one, scaled. -/
def CyR (s : Fin n → ℝ) (e : ℝ) (C D : Cylinder ℝ) : Prop :=
  VR s e C.point D.point ∧ VR s e C.vector D.vector ∧ SR e C.radius D.radius

theorem cylinderNew_vr (hs : Sg A s) (he : Sc A e) (h0 : 0 < e) {p p' v v' : List ℝ} {r r' : ℝ} (hp : VR s e p p') (hv : VR s e v v') (hr : SR e r r') :
    SameOutcome (CyR s e) (@Cylinder.new ℝ (rounded A) p v r) (@Cylinder.new ℝ (rounded A) p' v' r') := by
  refine so_bind (new1D_vr hp) fun _ _ hp => so_bind (new1D_vr hv) fun _ _ hv => ?_
  have l1 := hp.length
  have l2 := hv.length
  simp only [l1.1, l1.2, l2.1, l2.2]
  split
  · exact so_err
  · refine so_bind (isZero_vr hs he h0 tr_default hv) fun _ _ hz => so_ite hz so_err ?_
    exact so_ite (by rw [lt_sr h0 zero_sr hr]) so_err (so_ok ⟨hp, hv, hr⟩)

variable {C C' : Cylinder ℝ}

theorem length_vr (hs : Sg A s) (he : Sc A e) (h0 : 0 < e) (hC : CyR s e C C') :
    SR e (@Cylinder.length ℝ (rounded A) C) (@Cylinder.length ℝ (rounded A) C') := norm_vr hs he h0 hC.2.1

theorem between_vr (h1 : Sc A 1) (hs : Sg A s) (he : Sc A e) (h0 : 0 < e) (hC : CyR s e C C') (hx : VR s e x x') :
    SameOutcome (· = ·) (@Cylinder.betweenCapPlanes ℝ (rounded A) C x) (@Cylinder.betweenCapPlanes ℝ (rounded A) C' x') :=
  so_bind (planeNew_vr hs he h0 hC.1 hC.2.1) fun _ _ hP => so_bind (planeSigned_vr h1 hs he he h0 hP hx) fun _ _ h => so_ok (by
    rw [le_sr h0 zero_sr h, le_sr h0 h h, le_sr h0 h (length_vr hs he h0 hC)])

theorem within_vr (h1 : Sc A 1) (hs : Sg A s) (he : Sc A e) (h0 : 0 < e) (hC : CyR s e C C') (hx : VR s e x x') :
    SameOutcome (· = ·) (@Cylinder.isPointWithin ℝ (rounded A) C x) (@Cylinder.isPointWithin ℝ (rounded A) C' x') :=
  so_bind (lineNew_vr hs he h0 hC.1 hC.2.1) fun _ _ hL => so_bind (lineDistance_vr hs he h0 he hL hx) fun _ _ h =>
    so_bind (between_vr h1 hs he h0 hC hx) fun _ _ hb => so_ok (by rw [hb, le_sr h0 h hC.2.2])

theorem solveQuadratic_sr (h1 : Sc A 1) (he : Sc A e) (h0 : 0 < e) {a a' b b' c c' : ℝ} (ha : SR 1 a a') (hb : SR e b b')
    (hc : SR (e * e) c c') :
    SameOutcome (fun x y => SR e x.1 y.1 ∧ SR e x.2 y.2) (@solveQuadratic ℝ (rounded A) a b c none)
      (@solveQuadratic ℝ (rounded A) a' b' c' none) := by
  have hh := he.mul he
  have hD := sub_sr hh (sq_sr he hb) ((mul_sr (h1.mul h1) hh (mul_sr h1 h1 (ofInt_sr (A := A) 4) ha) hc).cast (by ring))
  refine so_ite (eq_sr one_ne_zero ha zero_sr) so_err (so_ite (lt_sr (mul_pos h0 h0) hD zero_sr) so_err
    (so_bind (mathSqrt_sr he h0 hD) fun _ _ hr => so_ok ?_))
  have ht : ∀ k : ℤ, _ := fun k => add_sr he (neg_sr (A := A) hb) (mul1_sr (x := @PyNum.ofInt ℝ (rounded A) k) h1 he hr)
  have h2 := mul_sr h1 h1 (ofInt_sr (A := A) 2) ha
  exact ⟨(div_sr he (h1.mul h1) (ht (-1)) h2).cast (by ring), (div_sr he (h1.mul h1) (ht 1) h2).cast (by ring)⟩

theorem infinite_vr (h1 : Sc A 1) (hs : Sg A s) (he : Sc A e) (h0 : 0 < e) (hf : Sc A f) (h0' : 0 < f) (hC : CyR s e C C') (hL : LR s e f L L') :
    SameOutcome (PairR s e) (@Cylinder.intersectInfinite ℝ (rounded A) C L none) (@Cylinder.intersectInfinite ℝ (rounded A) C' L' none) := by
  refine so_bind (unit_vr hs he h0 hC.2.1) fun vc vc' hvc => so_bind (unit_vr hs hf h0' hL.2) fun vl vl' hvl =>
    so_bind (fromPoints_vr hs he hC.1 hL.1) fun dp dp' hdp => so_bind (dot_vr hs h1 h1 hvl hvc) fun lc lc' hlc =>
    so_bind (vsub_vr hs h1 hvl ((smul_vr hs (h1.mul h1) h1 hlc hvc).cast (by ring))) fun pl pl' hpl =>
    so_bind (wrapped_vr _ hpl) fun pl pl' hpl => so_bind (dot_vr hs he h1 hdp hvc) fun pc pc' hpc =>
    so_bind (vsub_vr hs he hdp ((smul_vr hs (he.mul h1) h1 hpc hvc).cast (by ring))) fun pp pp' hpp => ?_
  refine so_bind (dot_vr hs h1 he hpl hpp) fun lp lp' hlp => so_bind (wrapped_vr _ hpp) fun pp pp' hpp => ?_
  have ha := (sq_sr h1 (norm_vr hs h1 one_pos hpl)).cast (one_mul 1)
  have hb := mul1_sr (x := @two ℝ (rounded A)) h1 he (hlp.cast (one_mul e))
  have hc := sub_sr (he.mul he) (sq_sr he (norm_vr hs he h0 hpp)) (sq_sr he hC.2.2)
  have hX := solveQuadratic_sr h1 he h0 ha hb hc
  refine so_bind (R := fun x y => SR e x.1 y.1 ∧ SR e x.2 y.2) ?_ fun X X' hX => so_bind
    (vadd_vr hs he hL.1 ((smul_vr hs he h1 hX.1 hvl).cast (mul_one e))) fun _ _ h3 => so_bind
    (vadd_vr hs he hL.1 ((smul_vr hs he h1 hX.2 hvl).cast (mul_one e))) fun _ _ h4 =>
    so_bind (new1D_vr h3) fun _ _ h3 => so_bind (new1D_vr h4) fun _ _ h4 => so_ok ⟨h3, h4⟩
  revert hX
  generalize @solveQuadratic ℝ (rounded A) _ _ _ none = r
  generalize @solveQuadratic ℝ (rounded A) _ _ _ none = r'
  intro hX
  match r, r', hX with
  | .ok _, .ok _, h => exact h
  | .error er, .error _, rfl => cases er <;> exact so_err

/-- Optional points. -/
def OptR (s : Fin n → ℝ) (e : ℝ) (a b : Option (List ℝ)) : Prop :=
  match a, b with
  | none, none => True
  | some x, some y => VR s e x y
  | _, _ => False

theorem cap_vr (hs : Sg A s) (he : Sc A e) (h0 : 0 < e) (hf : Sc A f) (h0' : 0 < f) (hC : CyR s e C C') (hP : PR s e e P P') (hL : LR s e f L L') :
    SameOutcome (OptR s e) (@Cylinder.intersectCap ℝ (rounded A) C L P) (@Cylinder.intersectCap ℝ (rounded A) C' L' P') := by
  have h := planeLine_vr hs he he h0 hf h0' (tr_default (A := A)) hP hL
  unfold Cylinder.intersectCap
  revert h
  generalize @Plane.intersectLine ℝ (rounded A) _ _ _ = r
  generalize @Plane.intersectLine ℝ (rounded A) _ _ _ = r'
  intro h
  match r, r', h with
  | .ok p, .ok p', h =>
    refine so_bind (wrapped_vr _ h) fun _ _ h => so_bind (distancePoint_vr hs he h0 h hP.1) fun _ _ hd => so_ok ?_
    rw [le_sr h0 hd hC.2.2]
    split
    · exact h
    · trivial
  | .error er, .error _, rfl => cases er <;> first | exact so_err | exact so_ok trivial

theorem finite_vr (h1 : Sc A 1) (hs : Sg A s) (he : Sc A e) (h0 : 0 < e) (hf : Sc A f) (h0' : 0 < f) (hC : CyR s e C C') (hL : LR s e f L L') :
    SameOutcome (PairR s e) (@Cylinder.intersectFinite ℝ (rounded A) C L none) (@Cylinder.intersectFinite ℝ (rounded A) C' L' none) := by
  refine so_bind (R := fun x y => OptR s e x.1 y.1 ∧ OptR s e x.2 y.2) (so_bind (planeNew_vr hs he h0 hC.1 hC.2.1) fun _ _ hb => so_bind (vadd_vr hs he hC.1 hC.2.1) fun _ _ ht =>
    so_bind (planeNew_vr hs he h0 ht hC.2.1) fun _ _ hT => so_bind (cap_vr hs he h0 hf h0' hC hb hL) fun _ _ h3 =>
    so_bind (cap_vr hs he h0 hf h0' hC hT hL) fun _ _ h4 => so_ok ⟨h3, h4⟩) ?_
  have hinf := infinite_vr h1 hs he h0 hf h0' hC hL
  rintro ⟨pb, pt⟩ ⟨pb', pt'⟩ ⟨hb, ht⟩
  match pb, pb', hb, pt, pt', ht with
  | some a, some a', ha, some b, some b', hb => exact so_ok ⟨ha, hb⟩
  | none, none, _, none, none, _ =>
    refine so_bind hinf ?_
    rintro ⟨a, b⟩ ⟨a', b'⟩ ⟨ha, hb⟩
    refine so_bind (between_vr h1 hs he h0 hC ha) fun i i' hi => so_bind (between_vr h1 hs he h0 hC hb) fun j j' hj => ?_
    subst hi; subst hj
    cases i <;> cases j <;> first | exact so_err | exact so_ok ⟨ha, hb⟩
  | none, none, _, some c, some c', hc =>
    refine so_bind hinf ?_
    rintro ⟨a, b⟩ ⟨a', b'⟩ ⟨ha, hb⟩
    refine so_bind (between_vr h1 hs he h0 hC ha) fun i i' hi => so_bind (between_vr h1 hs he h0 hC hb) fun j j' hj => ?_
    subst hi; subst hj
    cases i <;> cases j <;> first | exact so_ok ⟨ha, hb⟩ | exact so_ok ⟨ha, hc⟩ | exact so_ok ⟨hc, hb⟩ | exact so_ok ⟨hc, hc⟩
  | some c, some c', hc, none, none, _ =>
    refine so_bind hinf ?_
    rintro ⟨a, b⟩ ⟨a', b'⟩ ⟨ha, hb⟩
    refine so_bind (between_vr h1 hs he h0 hC ha) fun i i' hi => so_bind (between_vr h1 hs he h0 hC hb) fun j j' hj => ?_
    subst hi; subst hj
    cases i <;> cases j <;> first | exact so_ok ⟨ha, hb⟩ | exact so_ok ⟨ha, hc⟩ | exact so_ok ⟨hc, hb⟩ | exact so_ok ⟨hc, hc⟩

theorem cylinderLine_vr (h1 : Sc A 1) (hs : Sg A s) (he : Sc A e) (h0 : 0 < e) (hf : Sc A f) (h0' : 0 < f) (hC : CyR s e C C') (hL : LR s e f L L') (inf : Bool) :
    SameOutcome (PairR s e) (@Cylinder.intersectLine ℝ (rounded A) C L none inf) (@Cylinder.intersectLine ℝ (rounded A) C' L' none inf) := by
  have l1 := hL.1.length
  simp only [Cylinder.intersectLine, Line.dimension, l1.1, l1.2]
  split
  · exact so_err
  · exact so_ite rfl (infinite_vr h1 hs he h0 hf h0' hC hL) (finite_vr h1 hs he h0 hf h0' hC hL)

end Scaling
end SkSpatial
