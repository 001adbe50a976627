import Verif.Lemmas.Scaling
import Verif.Model.Cylinder
import Verif.Model.Triangle
import Verif.Model.LineSegment
import Verif.Model.Measurement
import Verif.Model.Sphere
import Verif.Props.Rounding2
import Verif.Props.Rounding8
/-! # Exact scaling, method by method -/

namespace SkSpatial
namespace Scaling
open StdRounding

variable {A : Arith} {e f g : ℝ} {n : ℕ} {s : Fin n → ℝ}

/-! ### `Vector` -/

theorem fromPoints_vr (hs : Sg A s) (he : Sc A e) {a a' b b' : List ℝ} (ha : VR s e a a') (hb : VR s e b b') :
    SameOutcome (VR s e) (@Vec.fromPoints ℝ (rounded A) a b) (@Vec.fromPoints ℝ (rounded A) a' b') :=
  so_bind (vsub_vr hs he hb ha) fun _ _ h => new1D_vr h

theorem unit_vr (hs : Sg A s) (he : Sc A e) (h0 : 0 < e) {a b : List ℝ} (ha : VR s e a b) :
    SameOutcome (VR s 1) (@Vec.unit ℝ (rounded A) a) (@Vec.unit ℝ (rounded A) b) := by
  have h := norm_vr hs he h0 ha
  exact so_ite (eq_sr h0.ne' h zero_sr) so_err (so_ok ((sdiv_vr hs he he h ha).cast (div_self h0.ne')))

theorem isZero_vr (hs : Sg A s) (he : Sc A e) (h0 : 0 < e) {t t' : Tol ℝ} (ht : TR (e * e) t t') {a b : List ℝ} (ha : VR s e a b) :
    SameOutcome (· = ·) (@Vec.isZero ℝ (rounded A) t a) (@Vec.isZero ℝ (rounded A) t' b) :=
  so_bind (dot_vr hs he he ha ha) fun _ _ h => isclose_sr (he.mul he) (mul_pos h0 h0) ht h zero_sr

theorem isPerpendicular_vr (hs : Sg A s) (he : Sc A e) (h0 : 0 < e) (hf : Sc A f) (h1 : 0 < f) {t t' : Tol ℝ} (ht : TR (e * f) t t')
    {a a' b b' : List ℝ} (ha : VR s e a a') (hb : VR s f b b') :
    SameOutcome (· = ·) (@Vec.isPerpendicular ℝ (rounded A) t a b) (@Vec.isPerpendicular ℝ (rounded A) t' a' b') :=
  so_bind (dot_vr hs he hf ha hb) fun _ _ h => isclose_sr (he.mul hf) (mul_pos h0 h1) ht h zero_sr

theorem clip_sr {x y : ℝ} (h : SR 1 x y) : SR 1 (@clip ℝ (rounded A) x (@PyNum.ofInt ℝ (rounded A) (-1)) (@one ℝ (rounded A)))
    (@clip ℝ (rounded A) y (@PyNum.ofInt ℝ (rounded A) (-1)) (@one ℝ (rounded A))) := by
  rw [sr_eq h]; exact one_sr _

theorem cosine_vr (hs : Sg A s) (he : Sc A e) (h0 : 0 < e) (hf : Sc A f) (h1 : 0 < f)
    {a a' b b' : List ℝ} (ha : VR s e a a') (hb : VR s f b b') :
    SameOutcome (SR 1) (@Vec.cosineSimilarity ℝ (rounded A) a b) (@Vec.cosineSimilarity ℝ (rounded A) a' b') := by
  refine so_bind (new1D_vr hb) fun o o' ho => ?_
  have hd := mul_sr (A := A) he hf (norm_vr hs he h0 ha) (norm_vr hs hf h1 ho)
  have hp := mul_pos h0 h1
  refine so_ite (eq_sr hp.ne' hd zero_sr) so_err (so_bind (dot_vr hs he hf ha hb) fun d d' h => so_ok (clip_sr ?_))
  exact (div_sr (he.mul hf) (he.mul hf) h hd).cast (div_self hp.ne')

theorem angleBetween_vr (hs : Sg A s) (he : Sc A e) (h0 : 0 < e) (hf : Sc A f) (h1 : 0 < f)
    {a a' b b' : List ℝ} (ha : VR s e a a') (hb : VR s f b b') :
    SameOutcome (· = ·) (@Vec.angleBetween ℝ (rounded A) a b) (@Vec.angleBetween ℝ (rounded A) a' b') := by
  refine so_bind (cosine_vr hs he h0 hf h1 ha hb) fun c c' h => ?_
  rw [← sr_eq h]
  unfold mathAcos
  split
  · exact so_err
  · exact so_ok rfl

/-- Tolerances without an absolute part. -/
structure TR0 (t t' : Tol ℝ) : Prop where
  rel : t'.rel = t.rel
  abs : t.abs = 0
  abs' : t'.abs = 0

theorem TR0.tr {t t' : Tol ℝ} (h : TR0 t t') (e : ℝ) : TR e t t' := ⟨h.rel, by rw [SR, h.abs, h.abs']; simp⟩
theorem TR0.default : TR0 (@Tol.default ℝ (rounded A)) (@Tol.default ℝ (rounded A)) := ⟨rfl, zero_rd A, zero_rd A⟩

theorem isParallel_vr (hs : Sg A s) (h1' : Sc A 1) (he : Sc A e) (h0 : 0 < e) (hf : Sc A f) (h1 : 0 < f) {t t' : Tol ℝ} (ht : TR0 t t')
    {a a' b b' : List ℝ} (ha : VR s e a a') (hb : VR s f b b') :
    SameOutcome (· = ·) (@Vec.isParallel ℝ (rounded A) t a b) (@Vec.isParallel ℝ (rounded A) t' a' b') := by
  refine so_bind (R := (· = ·)) (so_bind (isZero_vr hs he h0 (ht.tr _) ha) fun z z' hz => so_ite hz (so_ok rfl)
    (so_bind (new1D_vr hb) fun o o' ho => isZero_vr hs hf h1 (ht.tr _) ho)) fun z z' hz => so_ite hz (so_ok rfl)
    (so_bind (cosine_vr hs he h0 hf h1 ha hb) fun c c' hc => isclose_sr h1' one_pos (ht.tr _) (abs_sr one_pos hc) (one_sr _))

theorem scalarProjection_vr (hs : Sg A s) (h1' : Sc A 1) (he : Sc A e) (h0 : 0 < e) (hf : Sc A f)
    {a a' b b' : List ℝ} (ha : VR s e a a') (hb : VR s f b b') :
    SameOutcome (SR f) (@Vec.scalarProjection ℝ (rounded A) a b) (@Vec.scalarProjection ℝ (rounded A) a' b') :=
  so_bind (unit_vr hs he h0 ha) fun _ _ hu => so_mono (dot_vr hs h1' hf hu hb) fun _ _ h => h.cast (one_mul f)

theorem projectVector_vr (hs : Sg A s) (he : Sc A e) (hf : Sc A f)
    {a a' b b' : List ℝ} (ha : VR s e a a') (hb : VR s f b b') :
    SameOutcome (VR s f) (@Vec.projectVector ℝ (rounded A) a b) (@Vec.projectVector ℝ (rounded A) a' b') :=
  so_bind (dot_vr hs he hf ha hb) fun _ _ hn => so_bind (dot_vr hs he he ha ha) fun _ _ hd => so_ok
    ((smul_vr hs ((he.mul hf).div (he.mul he)) he (div_sr (he.mul hf) (he.mul he) hn hd) ha).cast (by
      have := he.ne; field_simp))

theorem distancePoint_vr (hs : Sg A s) (he : Sc A e) (h0 : 0 < e) {a a' b b' : List ℝ} (ha : VR s e a a') (hb : VR s e b b') :
    SameOutcome (SR e) (@Pt.distancePoint ℝ (rounded A) a b) (@Pt.distancePoint ℝ (rounded A) a' b') :=
  so_bind (fromPoints_vr hs he ha hb) fun _ _ h => so_ok (norm_vr hs he h0 h)

/-- The signs of a vector padded to three dimensions. -/
noncomputable def pad (s : Fin n → ℝ) : Fin 3 → ℝ := fun i => if h : (i : ℕ) < n then s ⟨i, h⟩ else 1

theorem pad_sg (h1 : Sc A 1) (hs : Sg A s) : Sg A (pad s) where
  sq i := by unfold pad; split; exacts [hs.sq _, by norm_num]
  sc i := by unfold pad; split; exacts [hs.sc _, h1]

theorem pad3_vr {v w : List ℝ} (h : VR s e v w) :
    SameOutcome (VR (pad s) e) (@setDimension ℝ (rounded A) 3 v) (@setDimension ℝ (rounded A) 3 w) := by
  have hl := h.length
  simp only [setDimension, hl.1, hl.2]
  split
  · exact so_err
  · rename_i hn
    have hn : n ≤ 3 := by omega
    obtain ⟨x, rfl, rfl⟩ := h
    refine new1D_vr ?_
    have key : ∀ y : E n, arr y ++ List.replicate ((3 : ℤ) - n).toNat (@zero ℝ (rounded A)) = arr (pad3 y) := fun y => by
      rw [zero_rd]
      apply List.ext_getElem
      · simp [arr]; omega
      · intro i h1 h2
        simp only [arr, List.getElem_append, List.length_ofFn, List.getElem_ofFn, List.getElem_replicate, padTo]
    rw [key, key]
    refine vr_mk fun i => ?_
    show (if h : (i : ℕ) < n then _ else (0 : ℝ)) = e * (_ * (if h : (i : ℕ) < n then _ else (0 : ℝ)))
    unfold pad
    by_cases h : (i : ℕ) < n <;> simp [h]

/-- The factor of a cross product: the orientation. -/
noncomputable def det (s : Fin 3 → ℝ) : ℝ := s 0 * s 1 * s 2

theorem det_sq {s : Fin 3 → ℝ} (hs : Sg A s) : det s * det s = 1 := by
  have h0 := hs.sq 0
  have h1 := hs.sq 1
  have h2 := hs.sq 2
  unfold det
  calc s 0 * s 1 * s 2 * (s 0 * s 1 * s 2) = (s 0 * s 0) * (s 1 * s 1) * (s 2 * s 2) := by ring
    _ = 1 := by rw [h0, h1, h2]; norm_num

theorem det_sc {s : Fin 3 → ℝ} (hs : Sg A s) : Sc A (det s) := ((hs.sc 0).mul (hs.sc 1)).mul (hs.sc 2)

theorem det_abs {s : Fin 3 → ℝ} (hs : Sg A s) : |det s| = 1 := by
  have := det_sq hs
  rcases mul_self_eq_one_iff.mp this with h | h <;> simp [h]

theorem cross3_vr {s : Fin 3 → ℝ} (hs : Sg A s) (he : Sc A e) (hf : Sc A f)
    {a a' b b' : List ℝ} (ha : VR s e a a') (hb : VR s f b b') :
    SameOutcome (VR s (det s * (e * f))) (@cross3 ℝ (rounded A) a b) (@cross3 ℝ (rounded A) a' b') := by
  obtain ⟨x, rfl, rfl⟩ := ha
  obtain ⟨y, rfl, rfl⟩ := hb
  have h0 := hs.sq 0
  have h1 := hs.sq 1
  have h2 := hs.sq 2
  have r : ∀ u v : E 3, @cross3 ℝ (rounded A) (arr u) (arr v) = .ok (arr (vec3 (A.fl (A.fl (u 1 * v 2) - A.fl (u 2 * v 1)))
      (A.fl (A.fl (u 2 * v 0) - A.fl (u 0 * v 2))) (A.fl (A.fl (u 0 * v 1) - A.fl (u 1 * v 0))))) := fun u v => by
    simp [arr3, cross3, vec3, sub_rd, mul_rd]
  have key : ∀ (i j : Fin 3) (u v : ℝ), A.fl (e * (s i * u) * (f * (s j * v))) = e * f * (s i * s j) * A.fl (u * v) :=
    fun i j u v => by
      rw [← ((he.mul hf).mul ((hs.sc i).mul (hs.sc j))).fl]; congr 1; ring
  have key2 : ∀ (i j k : Fin 3) (u v u' v' : ℝ), s k * s k = 1 → det s = s i * s j * s k →
      A.fl (A.fl (e * (s i * u) * (f * (s j * v))) - A.fl (e * (s j * u') * (f * (s i * v')))) =
        det s * (e * f) * (s k * A.fl (A.fl (u * v) - A.fl (u' * v'))) := fun i j k u v u' v' hk hd => by
    rw [key, key, mul_comm (s j) (s i), ← mul_sub, ((he.mul hf).mul ((hs.sc i).mul (hs.sc j))).fl, hd]
    linear_combination (-e * f * s i * s j * A.fl (A.fl (u * v) - A.fl (u' * v'))) * hk
  rw [r, r]
  refine so_ok (vr_mk fun i => ?_)
  fin_cases i
  · exact key2 1 2 0 _ _ _ _ h0 (by unfold det; ring)
  · exact key2 2 0 1 _ _ _ _ h1 (by unfold det; ring)
  · exact key2 0 1 2 _ _ _ _ h2 (by unfold det; ring)

theorem cross_vr (h1 : Sc A 1) (hs : Sg A s) (he : Sc A e) (hf : Sc A f) {a a' b b' : List ℝ} (ha : VR s e a a') (hb : VR s f b b') :
    SameOutcome (VR (pad s) (det (pad s) * (e * f))) (@Vec.cross ℝ (rounded A) a b) (@Vec.cross ℝ (rounded A) a' b') :=
  so_bind (pad3_vr ha) fun _ _ h => so_bind (new1D_vr hb) fun _ _ h2 => so_bind (pad3_vr h2) fun _ _ h3 =>
    so_bind (cross3_vr (pad_sg h1 hs) he hf h h3) fun _ _ h4 => new1D_vr h4

theorem norm_vr_abs (hs : Sg A s) (he : Sc A e) (hf : Sc A f) (h0 : 0 < f) (hef : |e| = f) {a b : List ℝ} (ha : VR s e a b) :
    SR f (@Vec.norm ℝ (rounded A) a) (@Vec.norm ℝ (rounded A) b) := by
  have h : ∀ l, @Vec.norm ℝ (rounded A) l = @PyNum.sqrt ℝ (rounded A) (@dotv ℝ (rounded A) l l) := fun l => by
    simp only [Vec.norm, normv, toFloats_rd]
  rw [h, h]
  refine sqrt_sr hf h0 ((dotv_vr hs he he ha ha).cast ?_)
  rw [← hef, abs_mul_abs_self]

theorem det_mul_abs {s : Fin 3 → ℝ} (hs : Sg A s) (h0 : 0 < e) : |det s * e| = e := by
  rw [abs_mul, det_abs hs, abs_of_pos h0, one_mul]

/-- The outcome of a side: unchanged or negated with the orientation. -/
def SgR (d : ℝ) (x y : ℤ) : Prop := (y : ℝ) = d * x

theorem intSign_sr (h0 : 0 < e) {d x y : ℝ} (hd : d * d = 1) (h : SR (d * e) x y) :
    SameOutcome (SgR d) (@intSign ℝ (rounded A) x) (@intSign ℝ (rounded A) y) := by
  rw [intSign_rd, intSign_rd]
  refine so_ok ?_
  rw [h]
  rcases mul_self_eq_one_iff.mp hd with rfl | rfl
  · simp only [SgR, one_mul]
    rcases lt_trichotomy x 0 with hx | hx | hx
    · have : e * x < 0 := mul_neg_of_pos_of_neg h0 hx
      simp [hx, this, hx.not_gt, this.not_gt]
    · simp [hx]
    · have : 0 < e * x := mul_pos h0 hx
      simp [hx, this]
  · simp only [SgR]
    rcases lt_trichotomy x 0 with hx | hx | hx
    · have : e * x < 0 := mul_neg_of_pos_of_neg h0 hx
      simp [hx, this, hx.not_gt, this.not_ge]
    · simp [hx]
    · have : 0 < e * x := mul_pos h0 hx
      simp [hx, h0, this.not_gt]

theorem sideVector_vr (h1 : Sc A 1) (hs : Sg A s) (he : Sc A e) (h0 : 0 < e) (hf : Sc A f) (h0' : 0 < f)
    {a a' b b' : List ℝ} (ha : VR s e a a') (hb : VR s f b b') :
    SameOutcome (SgR (pad s 0 * pad s 1)) (@Vec.sideVector ℝ (rounded A) a b) (@Vec.sideVector ℝ (rounded A) a' b') := by
  refine so_bind (new1D_vr hb) fun o o' ho => ?_
  have l1 := ha.length
  have l2 := ho.length
  simp only [l1.1, l1.2, l2.1, l2.2]
  by_cases hn : n = 2
  · rw [if_neg (by simp [hn]), if_neg (by simp [hn])]
    refine so_bind (pad3_vr ho) fun _ _ h2 => so_bind (pad3_vr ha) fun _ _ h3 => so_bind (cross3_vr (pad_sg h1 hs) hf he h2 h3) ?_
    rintro _ _ ⟨x, rfl, rfl⟩
    rw [arr3, arr3]
    have hp := pad_sg h1 hs
    refine intSign_sr (e := f * e) (mul_pos h0' h0) ?_ ?_
    · have q0 := hp.sq 0
      have q1 := hp.sq 1
      calc _ = (pad s 0 * pad s 0) * (pad s 1 * pad s 1) := by ring
        _ = 1 := by rw [q0, q1]; norm_num
    · show det (pad s) * (f * e) * (pad s 2 * x 2) = _ * x 2
      have q2 := hp.sq 2
      unfold det
      linear_combination (pad s 0 * pad s 1 * f * e * x 2) * q2
  · rw [if_pos (by simp [hn]), if_pos (by simp [hn])]
    exact so_err

/-! ### `Line` and `Plane` -/

theorem newLinePlane_vr (hs : Sg A s) (hf : Sc A f) (h1 : 0 < f) {p p' v v' : List ℝ} (hp : VR s e p p') (hv : VR s f v v') :
    SameOutcome (fun x y => VR s e x.1 y.1 ∧ VR s f x.2 y.2) (@newLinePlane ℝ (rounded A) p v) (@newLinePlane ℝ (rounded A) p' v') := by
  refine so_bind (new1D_vr hp) fun _ _ hp => so_bind (new1D_vr hv) fun _ _ hv => ?_
  have l1 := hp.length
  have l2 := hv.length
  simp only [l1.1, l1.2, l2.1, l2.2, ne_eq, not_true_eq_false, if_false]
  exact so_bind (isZero_vr hs hf h1 tr_default hv) fun z z' hz => so_ite hz so_err (so_ok ⟨hp, hv⟩)

/-- The second line is the first one, its point scaled by `e` and its direction by `f`. -/
def LR (s : Fin n → ℝ) (e f : ℝ) (L M : Line ℝ) : Prop := VR s e L.point M.point ∧ VR s f L.direction M.direction
/-- The second plane is the first one, its point scaled by `e` and its normal by `f`. -/
def PR (s : Fin n → ℝ) (e f : ℝ) (L M : Plane ℝ) : Prop := VR s e L.point M.point ∧ VR s f L.normal M.normal

theorem lineNew_vr (hs : Sg A s) (hf : Sc A f) (h1 : 0 < f) {p p' v v' : List ℝ} (hp : VR s e p p') (hv : VR s f v v') :
    SameOutcome (LR s e f) (@Line.new ℝ (rounded A) p v) (@Line.new ℝ (rounded A) p' v') :=
  so_bind (newLinePlane_vr hs hf h1 hp hv) fun _ _ h => so_ok h

theorem planeNew_vr (hs : Sg A s) (hf : Sc A f) (h1 : 0 < f) {p p' v v' : List ℝ} (hp : VR s e p p') (hv : VR s f v v') :
    SameOutcome (PR s e f) (@Plane.new ℝ (rounded A) p v) (@Plane.new ℝ (rounded A) p' v') :=
  so_bind (newLinePlane_vr hs hf h1 hp hv) fun _ _ h => so_ok h

theorem lineFromPoints_vr (hs : Sg A s) (he : Sc A e) (h0 : 0 < e) {a a' b b' : List ℝ} (ha : VR s e a a') (hb : VR s e b b') :
    SameOutcome (LR s e e) (@Line.fromPoints ℝ (rounded A) a b) (@Line.fromPoints ℝ (rounded A) a' b') :=
  so_bind (fromPoints_vr hs he ha hb) fun _ _ h => lineNew_vr hs he h0 ha h

variable {L L' M M' : Line ℝ} {P P' Q Q' : Plane ℝ} {x x' : List ℝ} {t t' : Tol ℝ}

theorem lineProject_vr (hs : Sg A s) (he : Sc A e) (hf : Sc A f) (hL : LR s e f L L') (hx : VR s e x x') :
    SameOutcome (VR s e) (@Line.projectPoint ℝ (rounded A) L x) (@Line.projectPoint ℝ (rounded A) L' x') :=
  so_bind (fromPoints_vr hs he hL.1 hx) fun _ _ h => so_bind (projectVector_vr hs hf he hL.2 h) fun _ _ h2 => vadd_vr hs he hL.1 h2

theorem lineDistance_vr (hs : Sg A s) (he : Sc A e) (h0 : 0 < e) (hf : Sc A f) (hL : LR s e f L L') (hx : VR s e x x') :
    SameOutcome (SR e) (@Line.distancePoint ℝ (rounded A) L x) (@Line.distancePoint ℝ (rounded A) L' x') :=
  so_bind (lineProject_vr hs he hf hL hx) fun _ _ h => so_bind (wrapped_vr _ h) fun _ _ h => distancePoint_vr hs he h0 h hx

theorem containsFn_vr (he : Sc A e) (h0 : 0 < e) {d d' : List ℝ → Res ℝ} (ht : TR e t t')
    (h : SameOutcome (SR e) (d x) (d' x')) :
    SameOutcome (· = ·) (@containsPointFn ℝ (rounded A) d t x) (@containsPointFn ℝ (rounded A) d' t' x') :=
  so_bind h fun _ _ h => isclose_sr he h0 ht h zero_sr

theorem lineContains_vr (hs : Sg A s) (he : Sc A e) (h0 : 0 < e) (hf : Sc A f) (ht : TR e t t') (hL : LR s e f L L') (hx : VR s e x x') :
    SameOutcome (· = ·) (@Line.containsPoint ℝ (rounded A) t L x) (@Line.containsPoint ℝ (rounded A) t' L' x') :=
  containsFn_vr he h0 ht (lineDistance_vr hs he h0 hf hL hx)

theorem lineSide_vr (h1 : Sc A 1) (hs : Sg A s) (he : Sc A e) (h0 : 0 < e) (hf : Sc A f) (h0' : 0 < f) (hL : LR s e f L L') (hx : VR s e x x') :
    SameOutcome (SgR (pad s 0 * pad s 1)) (@Line.sidePoint ℝ (rounded A) L x) (@Line.sidePoint ℝ (rounded A) L' x') :=
  so_bind (fromPoints_vr hs he hL.1 hx) fun _ _ h => sideVector_vr h1 hs hf h0' he h0 hL.2 h

theorem lineClose_vr (h1 : Sc A 1) (hs : Sg A s) (he : Sc A e) (h0 : 0 < e) (hf : Sc A f) (h0' : 0 < f) (hg : Sc A g) (h0'' : 0 < g)
    (ht : TR0 t t') (hL : LR s e f L L') (hM : LR s e g M M') :
    SameOutcome (· = ·) (@Line.isClose ℝ (rounded A) t L (.line M)) (@Line.isClose ℝ (rounded A) t' L' (.line M')) :=
  so_bind (lineContains_vr hs he h0 hf (ht.tr _) hL hM.1) fun _ _ h =>
    so_bind (isParallel_vr hs h1 hf h0' hg h0'' ht hL.2 hM.2) fun _ _ h2 => so_ok (by rw [h, h2])

theorem planeProject_vr (hs : Sg A s) (he : Sc A e) (hf : Sc A f) (hP : PR s e f P P') (hx : VR s e x x') :
    SameOutcome (VR s e) (@Plane.projectPoint ℝ (rounded A) P x) (@Plane.projectPoint ℝ (rounded A) P' x') :=
  so_bind (fromPoints_vr hs he hx hP.1) fun _ _ h => so_bind (projectVector_vr hs hf he hP.2 h) fun _ _ h2 =>
    so_bind (new1D_vr hx) fun _ _ hx => vadd_vr hs he hx h2

theorem planeProjectVector_vr (hs : Sg A s) (he : Sc A e) (hf : Sc A f) (hP : PR s e f P P') (hx : VR s e x x') :
    SameOutcome (VR s e) (@Plane.projectVector ℝ (rounded A) P x) (@Plane.projectVector ℝ (rounded A) P' x') :=
  so_bind (vadd_vr hs he hP.1 hx) fun _ _ h => so_bind (planeProject_vr hs he hf hP h) fun _ _ h2 => fromPoints_vr hs he hP.1 h2

theorem planeSigned_vr (h1 : Sc A 1) (hs : Sg A s) (he : Sc A e) (hf : Sc A f) (h0' : 0 < f) (hP : PR s e f P P') (hx : VR s e x x') :
    SameOutcome (SR e) (@Plane.distancePointSigned ℝ (rounded A) P x) (@Plane.distancePointSigned ℝ (rounded A) P' x') :=
  so_bind (fromPoints_vr hs he hP.1 hx) fun _ _ h => scalarProjection_vr hs h1 hf h0' he hP.2 h

theorem planeDistance_vr (h1 : Sc A 1) (hs : Sg A s) (he : Sc A e) (h0 : 0 < e) (hf : Sc A f) (h0' : 0 < f) (hP : PR s e f P P') (hx : VR s e x x') :
    SameOutcome (SR e) (@Plane.distancePoint ℝ (rounded A) P x) (@Plane.distancePoint ℝ (rounded A) P' x') :=
  so_bind (planeSigned_vr h1 hs he hf h0' hP hx) fun _ _ h => so_ok (abs_sr h0 h)

theorem planeContains_vr (h1 : Sc A 1) (hs : Sg A s) (he : Sc A e) (h0 : 0 < e) (hf : Sc A f) (h0' : 0 < f) (ht : TR e t t') (hP : PR s e f P P') (hx : VR s e x x') :
    SameOutcome (· = ·) (@Plane.containsPoint ℝ (rounded A) t P x) (@Plane.containsPoint ℝ (rounded A) t' P' x') :=
  containsFn_vr he h0 ht (planeDistance_vr h1 hs he h0 hf h0' hP hx)

theorem planeSide_vr (h1 : Sc A 1) (hs : Sg A s) (he : Sc A e) (h0 : 0 < e) (hf : Sc A f) (h0' : 0 < f) (hP : PR s e f P P') (hx : VR s e x x') :
    SameOutcome (· = ·) (@Plane.sidePoint ℝ (rounded A) P x) (@Plane.sidePoint ℝ (rounded A) P' x') :=
  so_bind (planeSigned_vr h1 hs he hf h0' hP hx) fun _ _ h => so_mono (intSign_sr (A := A) (d := 1) h0 (by norm_num) (h.cast (one_mul e).symm))
    fun a b hab => by unfold SgR at hab; rw [one_mul] at hab; exact_mod_cast hab.symm

theorem planeClose_vr (h1 : Sc A 1) (hs : Sg A s) (he : Sc A e) (h0 : 0 < e) (hf : Sc A f) (h0' : 0 < f) (hg : Sc A g) (h0'' : 0 < g)
    (ht : TR0 t t') (hP : PR s e f P P') (hQ : PR s e g Q Q') :
    SameOutcome (· = ·) (@Plane.isClose ℝ (rounded A) t P (.plane Q)) (@Plane.isClose ℝ (rounded A) t' P' (.plane Q')) :=
  so_bind (planeContains_vr h1 hs he h0 hf h0' (ht.tr _) hP hQ.1) fun _ _ h =>
    so_bind (isParallel_vr hs h1 hf h0' hg h0'' ht hP.2 hQ.2) fun _ _ h2 => so_ok (by rw [h, h2])

theorem planeLine_vr (hs : Sg A s) (he : Sc A e) (hf : Sc A f) (h0' : 0 < f) (hg : Sc A g) (h0'' : 0 < g)
    (ht : TR (f * g) t t') (hP : PR s e f P P') (hL : LR s e g L L') :
    SameOutcome (VR s e) (@Plane.intersectLine ℝ (rounded A) t P L) (@Plane.intersectLine ℝ (rounded A) t' P' L') :=
  so_bind (isPerpendicular_vr hs hf h0' hg h0'' ht hP.2 hL.2) fun _ _ h => so_ite h so_err <|
    so_bind (fromPoints_vr hs he hP.1 hL.1) fun _ _ hv => so_bind (dot_vr hs hf he hP.2 hv) fun _ _ hn =>
    so_bind (dot_vr hs hf hg hP.2 hL.2) fun _ _ hd => vadd_vr hs he hL.1 <|
      (smul_vr hs ((hf.mul he).div (hf.mul hg)) hg (div_sr (hf.mul he) (hf.mul hg) (neg_sr hn) hd) hL.2).cast (by
        have := hf.ne; have := hg.ne; field_simp)

/-- The projection of a line: the direction is scaled like the points if it is computed, like the given direction
otherwise; with `g = e` both agree. -/
theorem planeProjectLine_vr (h1 : Sc A 1) (hs : Sg A s) (he : Sc A e) (h0 : 0 < e) (hf : Sc A f) (h0' : 0 < f)
    (ht : TR0 t t') (hP : PR s e f P P') (hL : LR s e e L L') :
    SameOutcome (LR s e e) (@Plane.projectLine ℝ (rounded A) t P L) (@Plane.projectLine ℝ (rounded A) t' P' L') :=
  so_bind (isParallel_vr hs h1 hf h0' he h0 ht hP.2 hL.2) fun _ _ h => so_ite h so_err <|
    so_bind (planeProject_vr hs he hf hP hL.1) fun _ _ hp =>
    so_bind (isPerpendicular_vr hs hf h0' he h0 (ht.tr _) hP.2 hL.2) fun _ _ h2 => so_ite h2 (lineNew_vr hs he h0 hp hL.2) <|
    so_bind (planeProjectVector_vr hs he hf hP hL.2) fun _ _ hv => lineNew_vr hs he h0 hp hv

end Scaling
end SkSpatial
