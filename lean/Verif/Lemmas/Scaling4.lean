import Verif.Lemmas.Scaling3
/-! # Exact scaling: circles, triangles, segments, measurement, points -/

namespace SkSpatial
namespace Scaling
open StdRounding

variable {A : Arith} {e f g : ℝ} {n : ℕ} {s : Fin n → ℝ} {L L' M M' : Line ℝ} {x x' : List ℝ} {t t' : Tol ℝ}

theorem vr2 {s : Fin 2 → ℝ} {v w : List ℝ} (h : VR s e v w) :
    ∃ x y x' y', v = [x, y] ∧ w = [x', y'] ∧ SR (s 0 * e) x x' ∧ SR (s 1 * e) y y' := by
  obtain ⟨z, rfl, rfl⟩ := h
  refine ⟨z 0, z 1, _, _, by simp [arr], by simp [arr]; exact ⟨rfl, rfl⟩, ?_, ?_⟩
  · show e * (s 0 * z 0) = _; ring
  · show e * (s 1 * z 1) = _; ring

theorem vr2' {s : Fin 2 → ℝ} {x y x' y' : ℝ} (h0 : SR (s 0 * e) x x') (h1 : SR (s 1 * e) y y') : VR s e [x, y] [x', y'] := by
  refine ⟨vec2 x y, (arr_vec2 x y).symm, ?_⟩
  simp only [arr, List.ofFn_succ, List.ofFn_zero]
  congr 1
  · rw [h0]; show _ = e * (s 0 * x); ring
  · congr 1
    rw [h1]; show _ = e * (s 1 * y); ring

theorem circleCircle_vr {s : Fin 2 → ℝ} (h1 : Sc A 1) (hn1 : Sc A (-1)) (hs : Sg A s) (he : Sc A e) (h0 : 0 < e) {C C' D D' : Circle ℝ}
    (hC : CiR s e C C') (hD : CiR s e D D') :
    SameOutcome (PairR' s e) (@Circle.intersectCircle ℝ (rounded A) C D) (@Circle.intersectCircle ℝ (rounded A) C' D') := by
  refine so_bind (distancePoint_vr hs he h0 hC.1 hD.1) fun d d' hd => ?_
  refine so_ite (eq_sr h0.ne' hd zero_sr) so_err <| so_ite (lt_sr h0 (add_sr he hC.2 hD.2) hd) so_err <|
    so_ite (lt_sr h0 hd (abs_sr h0 (sub_sr he hC.2 hD.2))) so_err ?_
  have hh := he.mul he
  have ha := (div_sr hh he (add_sr hh (sub_sr hh (sq_sr he hC.2) (sq_sr he hD.2)) (sq_sr he hd))
    (mul1_sr (x := @two ℝ (rounded A)) h1 he hd)).cast (mul_div_cancel_right₀ e he.ne)
  refine so_bind (mathSqrt_sr he h0 (sub_sr hh (sq_sr he hC.2) (sq_sr he ha))) fun h h' hhh => ?_
  refine so_bind (fromPoints_vr hs he hC.1 hD.1) fun v v' hv => ?_
  refine so_bind (vadd_vr hs he hC.1 ((sdiv_vr hs he hh hd (smul_vr hs he he ha hv)).cast (mul_div_cancel_right₀ e he.ne))) fun m m' hm => ?_
  obtain ⟨mx, my, mx', my', rfl, rfl, hmx, hmy⟩ := vr2 hm
  obtain ⟨x1, y1, x1', y1', e1, e2, hx1, hy1⟩ := vr2 hC.1
  obtain ⟨x2, y2, x2', y2', e3, e4, hx2, hy2⟩ := vr2 hD.1
  rw [e1, e2, e3, e4]
  have sa := hs.sc 0
  have sb := hs.sc 1
  have hse := fun i => (hs.sc i).mul he
  -- the offsets
  have q : ∀ (i : Fin 2) (k : ℤ) (u u' : ℝ), SR (s i * e) u u' →
      SR (s i * e) (@PyNum.div ℝ (rounded A) (@PyNum.mul ℝ (rounded A) (@PyNum.mul ℝ (rounded A) (@PyNum.ofInt ℝ (rounded A) k) h) u) d)
        (@PyNum.div ℝ (rounded A) (@PyNum.mul ℝ (rounded A) (@PyNum.mul ℝ (rounded A) (@PyNum.ofInt ℝ (rounded A) k) h') u') d') :=
    fun i k u u' hu => (div_sr (he.mul (hse i)) he (mul_sr he (hse i) (mul1_sr h1 he hhh) hu) hd).cast (by
      have := he.ne; field_simp)
  have qn : ∀ (k : ℤ) (u : ℝ),
      (@PyNum.div ℝ (rounded A) (@PyNum.mul ℝ (rounded A) (@PyNum.mul ℝ (rounded A) (@PyNum.ofInt ℝ (rounded A) (-k)) h) u) d) =
      -(@PyNum.div ℝ (rounded A) (@PyNum.mul ℝ (rounded A) (@PyNum.mul ℝ (rounded A) (@PyNum.ofInt ℝ (rounded A) k) h) u) d) := fun k u => by
    simp only [div_rd, mul_rd, ofInt_rd, Int.cast_neg, neg_mul, he.odd, neg_div]
  have hY := sub_sr (hse 1) hy1 hy2
  have hX := sub_sr (hse 0) hx1 hx2
  have fin : ∀ k : ℤ, (SR (s 0 * e)
        (@PyNum.add ℝ (rounded A) mx (@PyNum.div ℝ (rounded A) (@PyNum.mul ℝ (rounded A) (@PyNum.mul ℝ (rounded A) (@PyNum.ofInt ℝ (rounded A) k) h) (@PyNum.sub ℝ (rounded A) y1 y2)) d))
        (@PyNum.add ℝ (rounded A) mx' (@PyNum.div ℝ (rounded A) (@PyNum.mul ℝ (rounded A) (@PyNum.mul ℝ (rounded A) (@PyNum.ofInt ℝ (rounded A) ((if s 0 = s 1 then 1 else -1) * k)) h') (@PyNum.sub ℝ (rounded A) y1' y2')) d'))) ∧
      (SR (s 1 * e)
        (@PyNum.sub ℝ (rounded A) my (@PyNum.div ℝ (rounded A) (@PyNum.mul ℝ (rounded A) (@PyNum.mul ℝ (rounded A) (@PyNum.ofInt ℝ (rounded A) k) h) (@PyNum.sub ℝ (rounded A) x1 x2)) d))
        (@PyNum.sub ℝ (rounded A) my' (@PyNum.div ℝ (rounded A) (@PyNum.mul ℝ (rounded A) (@PyNum.mul ℝ (rounded A) (@PyNum.ofInt ℝ (rounded A) ((if s 0 = s 1 then 1 else -1) * k)) h') (@PyNum.sub ℝ (rounded A) x1' x2')) d'))) := by
    intro k
    have qY := fun k => q 1 k _ _ hY
    have qX := fun k => q 0 k _ _ hX
    by_cases h01 : s 0 = s 1
    · simp only [h01, if_true, one_mul]
      rw [h01] at hmx qX
      exact ⟨add_sr (hse 1) hmx (qY k), sub_sr (hse 1) hmy (qX k)⟩
    · have h01' : s 1 = -s 0 := by
        rcases mul_self_eq_one_iff.mp (hs.sq 0) with a | a <;> rcases mul_self_eq_one_iff.mp (hs.sq 1) with b | b <;>
          simp_all
      simp only [h01, if_false]
      constructor
      · refine add_sr (hse 0) hmx ?_
        have := qY (-1 * k)
        rw [show (-1 * k : ℤ) = -k by ring] at this ⊢
        rw [qn] at this
        rw [SR] at this ⊢
        rw [this, h01']; ring
      · refine sub_sr (hse 1) hmy ?_
        have := qX (-1 * k)
        rw [show (-1 * k : ℤ) = -k by ring] at this ⊢
        rw [qn] at this
        rw [SR] at this ⊢
        rw [this, h01']; ring
  have nn : ∀ a b : ℝ, @new1D ℝ (rounded A) [a, b] = .ok [a, b] := fun _ _ => rfl
  simp only [nn, ok_bind]
  have f1 := fin 1
  have f2 := fin (-1)
  by_cases h01 : s 0 = s 1
  · simp only [h01, if_true, one_mul, mul_one] at f1 f2
    exact so_ok (.inl ⟨vr2' (by rw [h01]; exact f1.1) f1.2, vr2' (by rw [h01]; exact f2.1) f2.2⟩)
  · simp only [h01, if_false, mul_one] at f1 f2
    exact so_ok (.inr ⟨vr2' f1.1 f1.2, vr2' (by simpa using f2.1) (by simpa using f2.2)⟩)

/-! ### Triangles -/

/-- The second triangle is the first one, scaled. -/
def TriR (s : Fin n → ℝ) (e : ℝ) (T T' : Triangle ℝ) : Prop :=
  VR s e T.pointA T'.pointA ∧ VR s e T.pointB T'.pointB ∧ VR s e T.pointC T'.pointC

variable {T T' : Triangle ℝ}

theorem triLine_vr (hs : Sg A s) (he : Sc A e) (h0 : 0 < e) (hT : TriR s e T T') (side : String) :
    SameOutcome (LR s e e) (@Triangle.line ℝ (rounded A) T side) (@Triangle.line ℝ (rounded A) T' side) := by
  unfold Triangle.line
  split
  · exact lineFromPoints_vr hs he h0 hT.2.1 hT.2.2
  split
  · exact lineFromPoints_vr hs he h0 hT.2.2 hT.1
  split
  · exact lineFromPoints_vr hs he h0 hT.1 hT.2.1
  · exact so_err

theorem triLength_vr (hs : Sg A s) (he : Sc A e) (h0 : 0 < e) (hT : TriR s e T T') (side : String) :
    SameOutcome (SR e) (@Triangle.length ℝ (rounded A) T side) (@Triangle.length ℝ (rounded A) T' side) :=
  so_bind (triLine_vr hs he h0 hT side) fun _ _ h => so_ok (norm_vr hs he h0 h.2)

theorem triLengths_vr (hs : Sg A s) (he : Sc A e) (h0 : 0 < e) (hT : TriR s e T T') :
    SameOutcome (fun x y => SR e x.1 y.1 ∧ SR e x.2.1 y.2.1 ∧ SR e x.2.2 y.2.2) (@Triangle.lengths ℝ (rounded A) T) (@Triangle.lengths ℝ (rounded A) T') :=
  so_bind (triLength_vr hs he h0 hT "a") fun _ _ ha => so_bind (triLength_vr hs he h0 hT "b") fun _ _ hb =>
    so_bind (triLength_vr hs he h0 hT "c") fun _ _ hc => so_ok ⟨ha, hb, hc⟩

theorem perimeter_vr (hs : Sg A s) (he : Sc A e) (h0 : 0 < e) (hT : TriR s e T T') :
    SameOutcome (SR e) (@Triangle.perimeter ℝ (rounded A) T) (@Triangle.perimeter ℝ (rounded A) T') := by
  refine so_bind (triLengths_vr hs he h0 hT) ?_
  rintro ⟨a, b, c⟩ ⟨a', b', c'⟩ ⟨ha, hb, hc⟩
  refine so_ok ?_
  show A.sum [a', b', c'] = e * A.sum [a, b, c]
  rw [← he.sum]
  simp only [List.map_cons, List.map_nil]
  rw [show a' = e * a from ha, show b' = e * b from hb, show c' = e * c from hc]

theorem mathAcos_sr {x y : ℝ} (h : SR 1 x y) : SameOutcome (· = ·) (@mathAcos ℝ (rounded A) x) (@mathAcos ℝ (rounded A) y) := by
  rw [← sr_eq h]
  unfold mathAcos
  split
  · exact so_err
  · exact so_ok rfl

theorem triAngle_vr (h1 : Sc A 1) (hs : Sg A s) (he : Sc A e) (h0 : 0 < e) (hT : TriR s e T T') (v : String) :
    SameOutcome (· = ·) (@Triangle.angle ℝ (rounded A) T v) (@Triangle.angle ℝ (rounded A) T' v) := by
  refine so_bind (triLengths_vr hs he h0 hT) ?_
  rintro ⟨a, b, c⟩ ⟨a', b', c'⟩ ⟨ha, hb, hc⟩
  have hh := he.mul he
  have key : ∀ {x x' y y' z z' : ℝ}, SR e x x' → SR e y y' → SR e z z' → SameOutcome (· = ·)
      (@mathAcos ℝ (rounded A) (@PyNum.div ℝ (rounded A) (@PyNum.sub ℝ (rounded A) (@PyNum.add ℝ (rounded A) (@sq ℝ (rounded A) y) (@sq ℝ (rounded A) z)) (@sq ℝ (rounded A) x))
        (@PyNum.mul ℝ (rounded A) (@PyNum.mul ℝ (rounded A) (@two ℝ (rounded A)) y) z)))
      (@mathAcos ℝ (rounded A) (@PyNum.div ℝ (rounded A) (@PyNum.sub ℝ (rounded A) (@PyNum.add ℝ (rounded A) (@sq ℝ (rounded A) y') (@sq ℝ (rounded A) z')) (@sq ℝ (rounded A) x'))
        (@PyNum.mul ℝ (rounded A) (@PyNum.mul ℝ (rounded A) (@two ℝ (rounded A)) y') z'))) := fun hx hy hz => by
    refine mathAcos_sr ((div_sr hh hh (sub_sr hh (add_sr hh (sq_sr he hy) (sq_sr he hz)) (sq_sr he hx))
      (mul_sr he he (mul1_sr h1 he hy) hz)).cast (div_self hh.ne))
  simp only
  split
  · exact key ha hb hc
  split
  · exact key hb ha hc
  split
  · exact key hc ha hb
  · exact so_err

theorem classify_vr (hs : Sg A s) (he : Sc A e) (h0 : 0 < e) (ht : TR e t t') (hT : TriR s e T T') :
    SameOutcome (· = ·) (@Triangle.classify ℝ (rounded A) t T) (@Triangle.classify ℝ (rounded A) t' T') := by
  refine so_bind (triLengths_vr hs he h0 hT) ?_
  rintro ⟨a, b, c⟩ ⟨a', b', c'⟩ ⟨ha, hb, hc⟩
  refine so_bind (isclose_sr he h0 ht ha hb) fun i i' hi => so_bind (isclose_sr he h0 ht ha hc) fun j j' hj =>
    so_bind (isclose_sr he h0 ht hb hc) fun k k' hk => ?_
  subst hi; subst hj; subst hk
  simp only
  split
  · exact so_ok rfl
  split
  · exact so_ok rfl
  · exact so_ok rfl

theorem sort3_sr (h0 : 0 < e) {a b c a' b' c' : ℝ} (ha : SR e a a') (hb : SR e b b') (hc : SR e c c') :
    SR e (@Triangle.sort3 ℝ (rounded A) a b c).1 (@Triangle.sort3 ℝ (rounded A) a' b' c').1 ∧
    SR e (@Triangle.sort3 ℝ (rounded A) a b c).2.1 (@Triangle.sort3 ℝ (rounded A) a' b' c').2.1 ∧
    SR e (@Triangle.sort3 ℝ (rounded A) a b c).2.2 (@Triangle.sort3 ℝ (rounded A) a' b' c').2.2 := by
  have sw : ∀ {x x' y y' : ℝ}, SR e x x' → SR e y y' → ∃ u v u' v', SR e u u' ∧ SR e v v' ∧
      (if @PyNum.lt ℝ (rounded A) y x = true then (y, x) else (x, y)) = (u, v) ∧
      (if @PyNum.lt ℝ (rounded A) y' x' = true then (y', x') else (x', y')) = (u', v') := fun {x x' y y'} hx hy => by
    rw [← lt_sr h0 hy hx]
    split
    · exact ⟨_, _, _, _, hy, hx, rfl, rfl⟩
    · exact ⟨_, _, _, _, hx, hy, rfl, rfl⟩
  unfold Triangle.sort3
  obtain ⟨u, v, u', v', hu, hv, e1, e2⟩ := sw ha hb
  rw [e1, e2]
  simp only
  obtain ⟨w, z, w', z', hw, hz, e3, e4⟩ := sw hv hc
  rw [e3, e4]
  simp only
  obtain ⟨p, q, p', q', hp, hq, e5, e6⟩ := sw hu hw
  rw [e5, e6]
  exact ⟨hp, hq, hz⟩

theorem isRight_vr (hs : Sg A s) (he : Sc A e) (h0 : 0 < e) (ht : TR (e * e) t t') (hT : TriR s e T T') :
    SameOutcome (· = ·) (@Triangle.isRight ℝ (rounded A) t T) (@Triangle.isRight ℝ (rounded A) t' T') := by
  refine so_bind (triLengths_vr hs he h0 hT) ?_
  rintro ⟨a, b, c⟩ ⟨a', b', c'⟩ ⟨ha, hb, hc⟩
  obtain ⟨h3, h4, h5⟩ := sort3_sr (A := A) h0 ha hb hc
  exact isclose_sr (he.mul he) (mul_pos h0 h0) ht (add_sr (he.mul he) (sq_sr he h3) (sq_sr he h4)) (sq_sr he h5)

theorem altitude_vr (hs : Sg A s) (he : Sc A e) (h0 : 0 < e) (hT : TriR s e T T') (v : String) :
    SameOutcome (LR s e e) (@Triangle.altitude ℝ (rounded A) T v) (@Triangle.altitude ℝ (rounded A) T' v) := by
  unfold Triangle.altitude
  split
  · exact so_bind (triLine_vr hs he h0 hT _) fun _ _ hl => so_bind (lineProject_vr hs he he hl hT.1) fun _ _ hq => lineFromPoints_vr hs he h0 hT.1 hq
  split
  · exact so_bind (triLine_vr hs he h0 hT _) fun _ _ hl => so_bind (lineProject_vr hs he he hl hT.2.1) fun _ _ hq => lineFromPoints_vr hs he h0 hT.2.1 hq
  split
  · exact so_bind (triLine_vr hs he h0 hT _) fun _ _ hl => so_bind (lineProject_vr hs he he hl hT.2.2) fun _ _ hq => lineFromPoints_vr hs he h0 hT.2.2 hq
  · exact so_err

theorem orthocenter_vr (ext : NumpyExt ℝ) (h1 : Sc A 1) (hs : Sg A s) (he : Sc A e) (h0 : 0 < e) (ht : TR0 t t') (hT : TriR s e T T') :
    SameOutcome (VR s e) (@Triangle.orthocenter ℝ (rounded A) ext T false t) (@Triangle.orthocenter ℝ (rounded A) ext T' false t') :=
  so_bind (altitude_vr hs he h0 hT _) fun _ _ ha => so_bind (altitude_vr hs he h0 hT _) fun _ _ hb =>
    lineIntersect_vr ext h1 hs he he h0 he h0 ht ha hb

theorem areaTriangle_vr (h1 : Sc A 1) (hs : Sg A s) (he : Sc A e) (h0 : 0 < e) {a b c a' b' c' : List ℝ} (ha : VR s e a a') (hb : VR s e b b') (hc : VR s e c c') :
    SameOutcome (SR (e * e)) (@Measurement.areaTriangle ℝ (rounded A) a b c) (@Measurement.areaTriangle ℝ (rounded A) a' b' c') := by
  have hp := pad_sg h1 hs
  have hd := det_sc hp
  exact so_bind (fromPoints_vr hs he ha hb) fun _ _ hab => so_bind (fromPoints_vr hs he ha hc) fun _ _ hac =>
    so_bind (cross_vr h1 hs he he hab hac) fun _ _ hx => so_ok (mul1_sr h1 (he.mul he)
      (norm_vr_abs hp (hd.mul (he.mul he)) (he.mul he) (mul_pos h0 h0) (det_mul_abs hp (mul_pos h0 h0)) hx))

theorem triArea_vr (h1 : Sc A 1) (hs : Sg A s) (he : Sc A e) (h0 : 0 < e) (hT : TriR s e T T') :
    SameOutcome (SR (e * e)) (@Triangle.area ℝ (rounded A) T) (@Triangle.area ℝ (rounded A) T') := by
  have hp := pad_sg h1 hs
  have hd := det_sc hp
  exact so_bind (R := VR (pad s) (det (pad s) * (e * e))) (so_bind (fromPoints_vr hs he hT.1 hT.2.1) fun _ _ hab => so_bind (fromPoints_vr hs he hT.1 hT.2.2) fun _ _ hac =>
    cross_vr h1 hs he he hab hac) fun _ _ hx => so_ok (mul1_sr h1 (he.mul he)
      (norm_vr_abs hp (hd.mul (he.mul he)) (he.mul he) (mul_pos h0 h0) (det_mul_abs hp (mul_pos h0 h0)) hx))

theorem volume_vr (h1 : Sc A 1) (hs : Sg A s) (he : Sc A e) (h0 : 0 < e) {a b c d a' b' c' d' : List ℝ} (ha : VR s e a a') (hb : VR s e b b') (hc : VR s e c c') (hd : VR s e d d') :
    SameOutcome (SR (e * (e * e))) (@Measurement.volumeTetrahedron ℝ (rounded A) a b c d) (@Measurement.volumeTetrahedron ℝ (rounded A) a' b' c' d') := by
  have hp := pad_sg h1 hs
  have hD := det_sc hp
  refine so_bind (fromPoints_vr hs he ha hb) fun _ _ hab => so_bind (fromPoints_vr hs he ha hc) fun _ _ hac =>
    so_bind (fromPoints_vr hs he ha hd) fun _ _ had => so_bind (cross_vr h1 hs he he hac had) fun _ _ hx =>
    so_bind (pad3_vr hab) fun _ _ hab => so_bind (dot_vr hp he (hD.mul (he.mul he)) hab hx) fun _ _ hv => so_ok ?_
  refine mul1_sr h1 (he.mul (he.mul he)) ((abs_sr' hv).cast ?_)
  rw [abs_mul, det_mul_abs hp (mul_pos h0 h0), abs_of_pos h0]

/-! ### Segments -/

/-- The second segment is the first one, scaled. -/
def SegR (s : Fin n → ℝ) (e : ℝ) (T T' : LineSegment ℝ) : Prop := VR s e T.pointA T'.pointA ∧ VR s e T.pointB T'.pointB

variable {S S' R R' : LineSegment ℝ}

theorem isclose_sg (he : Sc A e) (h0 : 0 < e) {d : ℝ} (hd : d * d = 1) (ht : TR e t t') {x x' y y' : ℝ} (hx : SR (d * e) x x') (hy : SR (d * e) y y') :
    SameOutcome (· = ·) (@isclose ℝ (rounded A) t x y) (@isclose ℝ (rounded A) t' x' y') := by
  rcases mul_self_eq_one_iff.mp hd with rfl | rfl
  · exact isclose_sr he h0 ht (hx.cast (one_mul e)) (hy.cast (one_mul e))
  · have hn : @isclose ℝ (rounded A) t' x' y' = @isclose ℝ (rounded A) t' (-x') (-y') := by
      have q : A.fl (-y' - -x') = -A.fl (y' - x') := by rw [← he.odd]; congr 1; ring
      have m : ∀ z, |A.fl (t'.rel * -z)| = |A.fl (t'.rel * z)| := fun z => by rw [mul_neg, he.odd, abs_neg]
      simp only [isclose, toFloat_rd, isFinite_rd, eq_rd, sub_rd, mul_rd, abs_rd, neg_inj, q, abs_neg, m]
    rw [hn]
    refine isclose_sr he h0 ht ?_ ?_
    · rw [SR, hx]; ring
    · rw [SR, hy]; ring

theorem arrIsClose_vr (hs : Sg A s) (he : Sc A e) (h0 : 0 < e) (ht : TR e t t') {a a' b b' : List ℝ} (ha : VR s e a a') (hb : VR s e b b') :
    SameOutcome (· = ·) (@arrIsClose ℝ (rounded A) t a b) (@arrIsClose ℝ (rounded A) t' a' b') := by
  obtain ⟨x, rfl, rfl⟩ := ha
  obtain ⟨y, rfl, rfl⟩ := hb
  simp only [arrIsClose, broadcastPairs, length_arr, if_true, ok_bind]
  refine so_bind (R := List.Forall₂ (· = ·)) (so_mapM (R := fun p q => ∃ d : ℝ, d * d = 1 ∧ SR (d * e) p.1 q.1 ∧ SR (d * e) p.2 q.2) ?_ ?_) ?_
  · rw [List.forall₂_iff_get]
    refine ⟨by simp, fun i hi hi' => ⟨s ⟨i, by simpa using hi⟩, hs.sq _, ?_, ?_⟩⟩
    · simp [arr, SR]; ring
    · simp [arr, SR]; ring
  · rintro p q ⟨d, hd, hp, hq⟩
    exact isclose_sg he h0 hd ht hp hq
  · intro l m hlm
    rw [List.forall₂_eq_eq_eq] at hlm
    exact so_ok (by rw [hlm])

theorem segmentNew_vr (hs : Sg A s) (he : Sc A e) (h0 : 0 < e) {a a' b b' : List ℝ} (ha : VR s e a a') (hb : VR s e b b') :
    SameOutcome (SegR s e) (@LineSegment.new ℝ (rounded A) a b) (@LineSegment.new ℝ (rounded A) a' b') :=
  so_bind (new1D_vr ha) fun _ _ ha => so_bind (new1D_vr hb) fun _ _ hb =>
    so_bind (arrIsClose_vr hs he h0 tr_default ha hb) fun _ _ h => so_ite h so_err (so_ok ⟨ha, hb⟩)

theorem segmentContains_vr (h1 : Sc A 1) (hs : Sg A s) (he : Sc A e) (h0 : 0 < e) (ht : TR0 t t') (hS : SegR s e S S') (hx : VR s e x x') :
    SameOutcome (· = ·) (@LineSegment.containsPoint ℝ (rounded A) t S x) (@LineSegment.containsPoint ℝ (rounded A) t' S' x') :=
  so_bind (fromPoints_vr hs he hx hS.1) fun _ _ ha => so_bind (fromPoints_vr hs he hx hS.2) fun _ _ hb =>
    so_bind (isZero_vr hs he h0 (ht.tr _) ha) fun _ _ hz => so_bind (R := (· = ·)) (so_ite hz (so_ok rfl) (isZero_vr hs he h0 (ht.tr _) hb)) fun _ _ hz =>
    so_ite hz (so_ok rfl) <| so_bind (cosine_vr hs he h0 he h0 ha hb) fun _ _ hc => isclose_sr h1 one_pos (ht.tr _) hc (ofInt_sr _)

theorem segmentIntersect_vr (ext : NumpyExt ℝ) (h1 : Sc A 1) (hs : Sg A s) (he : Sc A e) (h0 : 0 < e) (ht : TR0 t t') (hS : SegR s e S S') (hR : SegR s e R R') :
    SameOutcome (VR s e) (@LineSegment.intersectLineSegment ℝ (rounded A) ext S R false t) (@LineSegment.intersectLineSegment ℝ (rounded A) ext S' R' false t') :=
  so_bind (lineFromPoints_vr hs he h0 hS.1 hS.2) fun _ _ hl => so_bind (lineFromPoints_vr hs he h0 hR.1 hR.2) fun _ _ hm =>
    so_bind (lineIntersect_vr ext h1 hs he he h0 he h0 ht hl hm) fun _ _ hp =>
    so_bind (segmentContains_vr h1 hs he h0 TR0.default hS hp) fun _ _ ha =>
    so_bind (segmentContains_vr h1 hs he h0 TR0.default hR hp) fun _ _ hb => so_ite (by rw [ha, hb]) so_err (so_ok hp)

/-! ### Points -/

/-- The second array of points is the first one, scaled. -/
def RowsR (s : Fin n → ℝ) (e : ℝ) (P Q : List (List ℝ)) : Prop := List.Forall₂ (VR s e) P Q

theorem rows_vr {P Q : List (List ℝ)} (h : RowsR s e P Q) :
    ∃ X : List (E n), P = rows X ∧ Q = rows (X.map fun x => (WithLp.toLp 2 fun i => e * (s i * x i) : E n)) := by
  induction h with
  | nil => exact ⟨[], rfl, rfl⟩
  | cons h _ ih =>
    obtain ⟨x, rfl, rfl⟩ := h
    obtain ⟨X, rfl, rfl⟩ := ih
    exact ⟨x :: X, rfl, rfl⟩

theorem newPoints_vr {P Q : List (List ℝ)} (h : RowsR s e P Q) :
    SameOutcome (RowsR s e) (@newPoints ℝ (rounded A) P) (@newPoints ℝ (rounded A) Q) := by
  cases h with
  | nil => exact so_err
  | cons ha hl =>
    rename_i a b l m
    have l1 := VR.length ha
    have l2 : ∀ r ∈ l, r.length = n := fun r hr => by
      obtain ⟨i, hi, rfl⟩ := List.mem_iff_getElem.mp hr
      exact ((List.forall₂_iff_get.mp hl).2 i hi ((List.forall₂_iff_get.mp hl).1 ▸ hi)).length.1
    have l3 : ∀ r ∈ m, r.length = n := fun r hr => by
      obtain ⟨i, hi, rfl⟩ := List.mem_iff_getElem.mp hr
      exact ((List.forall₂_iff_get.mp hl).2 i ((List.forall₂_iff_get.mp hl).1 ▸ hi) hi).length.2
    have c1 : (l.all fun s => decide (s.length = n)) = true := by
      simp only [List.all_eq_true, decide_eq_true_eq]; exact l2
    have c2 : (m.all fun s => decide (s.length = n)) = true := by
      simp only [List.all_eq_true, decide_eq_true_eq]; exact l3
    simp only [newPoints, c1, c2, l1.1, l1.2, Bool.not_true, Bool.false_eq_true, if_false]
    by_cases hn : n = 0
    · rw [if_pos hn, if_pos hn]; exact so_err
    · rw [if_neg hn, if_neg hn]
      have fin : ∀ L : List (List ℝ), (L.all fun s => s.all (@PyNum.isFinite ℝ (rounded A))) = true := fun L => by
        simp [isFinite_rd]
      simp only [fin, Bool.not_true, Bool.false_eq_true, if_false]
      exact so_ok (List.Forall₂.cons ha hl)

theorem sum_vr (he : Sc A e) {l m : List ℝ} (h : List.Forall₂ (SR e) l m) : SR e (@sumL ℝ (rounded A) l) (@sumL ℝ (rounded A) m) := by
  show A.sum m = e * A.sum l
  rw [← he.sum]
  congr 1
  induction h with
  | nil => rfl
  | cons h _ ih => rw [List.map_cons, ih, h]

theorem column_rows (X : List (E n)) (j : Fin n) : @column ℝ (rounded A) (rows X) j = X.map fun x => x j := by
  simp only [column, rows, List.map_map]
  refine List.map_congr_left fun x _ => ?_
  simp [arr, List.getD_eq_getElem?_getD]

theorem centroid_vr (h1 : Sc A 1) (hs : Sg A s) (he : Sc A e) {P Q : List (List ℝ)} (h : RowsR s e P Q) (hne : P ≠ []) :
    SameOutcome (VR s e) (@Pts.centroid ℝ (rounded A) P) (@Pts.centroid ℝ (rounded A) Q) := by
  obtain ⟨X, rfl, rfl⟩ := rows_vr h
  obtain ⟨x0, X, rfl⟩ : ∃ x0 X', X = x0 :: X' := by
    cases X with
    | nil => exact (hne rfl).elim
    | cons a b => exact ⟨a, b, rfl⟩
  obtain ⟨Y, hY⟩ : ∃ Y, Y = x0 :: X := ⟨_, rfl⟩
  have key : ∀ Z : List (E n), rowDim (rows Z) = n → @Pts.colMeans ℝ (rounded A) (rows Z) =
      arr (WithLp.toLp 2 fun j => A.fl (A.sum (Z.map fun x => x j) / Z.length) : E n) := fun Z hZ => by
    simp only [Pts.colMeans, hZ]
    apply List.ext_getElem
    · simp
    · intro i hi hi'
      have hin : i < n := by simpa using hi
      simp only [List.getElem_map, List.getElem_range, arr, List.getElem_ofFn, div_rd, ofInt_rd]
      rw [column_rows Z ⟨i, hin⟩, toFloats_rd]
      simp only [sumL, rows, List.length_map, Int.cast_natCast]
      rfl
  refine new1D_vr ?_
  rw [key _ (by simp [rowDim, rows]), key _ (by simp [rowDim, rows])]
  refine vr_mk fun j => ?_
  have hse := he.mul (hs.sc j)
  show A.fl _ = e * (s j * A.fl _)
  rw [← mul_assoc, ← hse.fl]
  congr 1
  rw [List.length_map, List.map_map, ← mul_div_assoc]
  congr 1
  rw [← hse.sum, List.map_map]
  congr 1
  refine List.map_congr_left fun x _ => ?_
  show e * (s j * x j) = e * s j * x j
  ring

theorem getD_sr {l m : List ℝ} (h : List.Forall₂ (SR e) l m) : ∀ i, SR e (l.getD i 0) (m.getD i 0) := by
  induction h with
  | nil => intro i; simp [SR]
  | cons h _ ih =>
    intro i
    cases i with
    | zero => simpa using h
    | succ i => simpa using ih i

theorem column_vr {s : Fin 2 → ℝ} {P Q : List (List ℝ)} (h : RowsR s e P Q) (j : Fin 2) :
    List.Forall₂ (SR (s j * e)) (@column ℝ (rounded A) P j) (@column ℝ (rounded A) Q j) := by
  obtain ⟨X, rfl, rfl⟩ := rows_vr h
  rw [column_rows, column_rows, List.forall₂_iff_get]
  refine ⟨by simp, fun i h1 h2 => ?_⟩
  simp only [List.get_eq_getElem, List.getElem_map, SR]
  ring

theorem areaSigned_vr {s : Fin 2 → ℝ} (h1 : Sc A 1) (hs : Sg A s) (he : Sc A e) {P Q : List (List ℝ)} (h : RowsR s e P Q) :
    SameOutcome (SR (s 0 * s 1 * (e * e))) (@Measurement.areaSigned ℝ (rounded A) P) (@Measurement.areaSigned ℝ (rounded A) Q) := by
  refine so_bind (newPoints_vr h) fun P Q h => ?_
  have hl := h.length_eq
  have hd : rowDim P = rowDim Q := by
    cases h with
    | nil => rfl
    | cons ha _ => simp [rowDim, ha.length.1, ha.length.2]
  rw [hl, hd]
  split
  · exact so_err
  split
  · exact so_err
  have sX := (hs.sc 0).mul he
  have sY := (hs.sc 1).mul he
  have sXY : Sc A (s 0 * s 1 * (e * e)) := ((hs.sc 0).mul (hs.sc 1)).mul (he.mul he)
  have hX := getD_sr (column_vr (A := A) h 0)
  have hY := getD_sr (column_vr (A := A) h 1)
  refine so_ok (mul1_sr h1 sXY (sum_vr sXY ?_))
  rw [List.forall₂_iff_get]
  refine ⟨by simp, fun i h1 h2 => ?_⟩
  simp only [List.get_eq_getElem, List.getElem_map, List.getElem_range, zero_rd]
  exact sub_sr sXY ((mul_sr sX sY (hX _) (hY _)).cast (by ring)) ((mul_sr sX sY (hX _) (hY _)).cast (by ring))

theorem maxL_vr (h0 : 0 < e) : ∀ {l m : List ℝ}, List.Forall₂ (SR e) l m → SR e (@Pts.maxL ℝ (rounded A) l) (@Pts.maxL ℝ (rounded A) m)
  | _, _, .nil => zero_sr
  | _, _, .cons h .nil => h
  | _, _, .cons h (.cons h2 t) => by
    have ih := maxL_vr h0 (.cons h2 t)
    simp only [Pts.maxL] at ih ⊢
    rw [← lt_sr (A := A) h0 h ih]
    split
    · exact ih
    · exact h

theorem normalize_vr (hs : Sg A s) (he : Sc A e) (h0 : 0 < e) {P Q : List (List ℝ)} (h : RowsR s e P Q) :
    RowsR s 1 (@Pts.normalizeDistance ℝ (rounded A) P) (@Pts.normalizeDistance ℝ (rounded A) Q) := by
  have hm : SR e (@Pts.maxL ℝ (rounded A) (P.map (@normv ℝ (rounded A)))) (@Pts.maxL ℝ (rounded A) (Q.map (@normv ℝ (rounded A)))) := by
    refine maxL_vr h0 ?_
    rw [List.forall₂_map_left_iff, List.forall₂_map_right_iff]
    exact h.imp fun a b hab => norm_vr hs he h0 hab
  simp only [Pts.normalizeDistance, RowsR]
  rw [List.forall₂_map_left_iff, List.forall₂_map_right_iff]
  exact h.imp fun a b hab => (sdiv_vr hs he he hm hab).cast (div_self he.ne)

theorem sumSquares_vr (he : Sc A e) {d d' : List ℝ → Res ℝ} (hd : ∀ x x', VR s e x x' → SameOutcome (SR e) (d x) (d' x'))
    {P Q : List (List ℝ)} (h : RowsR s e P Q) :
    SameOutcome (SR (e * e)) (@sumSquaresFn ℝ (rounded A) d P) (@sumSquaresFn ℝ (rounded A) d' Q) := by
  have hc : checkRows P = checkRows Q := by
    obtain ⟨X, rfl, rfl⟩ := rows_vr h
    cases X with
    | nil => rfl
    | cons a X =>
      have : ∀ (Y : List (E n)) (y : E n), checkRows (rows (y :: Y)) = checkRows (rows (y :: Y)) := fun _ _ => rfl
      simp [checkRows, rows]
  unfold sumSquaresFn
  rw [hc]
  refine so_bind (R := fun _ _ => True) (b := checkRows Q) ?_ fun _ _ _ => so_bind (so_mapM h hd) fun l m hlm => so_ok (sum_vr (he.mul he) ?_)
  · cases checkRows Q with
    | ok => exact trivial
    | error => exact so_err
  · rw [List.forall₂_map_left_iff, List.forall₂_map_right_iff]
    exact hlm.imp fun a b hab => sq_sr he hab

end Scaling
end SkSpatial
