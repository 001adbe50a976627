import Verif.Lemmas.Scaling4
import Verif.Lemmas.Rint
import Verif.Props.SumOrder
/-!
# C104: scaling by powers of two and turning axes around is exact in floating point

Change the unit of length by a factor `2^k` and turn around any of the axes: every method computes, bit for bit, the
rescaled result, or raises the same exception.  No rounding error depends on the unit (as long as nothing overflows or
underflows, see C96 and C97).  The arithmetic is any one whose rounding commutes with powers of two and with the sign.
-/

namespace SkSpatial
open Scaling

variable {A : Arith} {n : ℕ}

/-! ### The arithmetic -/

theorem foldl_scale {f : ℝ → ℝ} {e : ℝ} (hf : ∀ x, f (e * x) = e * f x) : ∀ (l : List ℝ) (a : ℝ),
    (l.map fun x => e * x).foldl (fun a b => f (a + b)) (e * a) = e * l.foldl (fun a b => f (a + b)) a
  | [], a => rfl
  | x :: l, a => by
    simp only [List.map_cons, List.foldl_cons]
    rw [← mul_add, hf, foldl_scale hf l]

theorem leftToRight_sc {f : ℝ → ℝ} {e : ℝ} (hf : ∀ x, f (e * x) = e * f x) :
    (∀ l, (leftToRight f).sum (l.map fun x => e * x) = e * (leftToRight f).sum l) ∧
    (∀ a b, (leftToRight f).dot (a.map fun x => e * x) b = e * (leftToRight f).dot a b) := by
  constructor
  · intro l
    have := foldl_scale hf l 0
    rwa [mul_zero] at this
  · intro a b
    have := foldl_scale hf (List.zipWith (fun x y => f (x * y)) a b) 0
    rw [mul_zero] at this
    show List.foldl _ 0 _ = _
    rw [← show _ = e * (leftToRight f).dot a b from this]
    congr 1
    rw [List.zipWith_map_left, List.map_zipWith]
    simp only [mul_assoc, hf]

theorem roundNearest_scale (p : ℕ) (k : ℤ) (x : ℝ) : roundNearest p (2 ^ k * x) = 2 ^ k * roundNearest p x := by
  by_cases hx : x = 0
  · simp [hx, roundNearest_zero]
  have hlog : Int.log 2 |(2 : ℝ) ^ k * x| = k + Int.log 2 |x| := by
    have h0 : 0 < |x| := abs_pos.mpr hx
    have h2 : (0 : ℝ) < 2 ^ k := by positivity
    rw [abs_mul, abs_of_pos h2]
    have := log_unique (x := 2 ^ k * |x|) (e := k + Int.log 2 |x|)
      (by rw [zpow_add₀ two_ne_zero]; exact mul_le_mul_of_nonneg_left (by exact_mod_cast Int.zpow_log_le_self (R := ℝ) one_lt_two h0) h2.le)
      (by rw [add_assoc, zpow_add₀ two_ne_zero]; exact mul_lt_mul_of_pos_left (by exact_mod_cast Int.lt_zpow_succ_log_self (R := ℝ) one_lt_two |x|) h2)
    rwa [abs_of_pos (by positivity)] at this
  unfold roundNearest
  rw [hlog, show (p : ℤ) - 1 - (k + Int.log 2 |x|) = -k + (p - 1 - Int.log 2 |x|) by ring, zpow_add₀ two_ne_zero, zpow_neg]
  have h2 : (2 : ℝ) ^ k ≠ 0 := by positivity
  rw [show (2 : ℝ) ^ k * x * (((2 : ℝ) ^ k)⁻¹ * 2 ^ ((p : ℤ) - 1 - Int.log 2 |x|)) = x * 2 ^ ((p : ℤ) - 1 - Int.log 2 |x|) by
    field_simp]
  field_simp

/-- C104: rounding to nearest even with any number of bits commutes with powers of two and with the sign, so do sums and
dot products from left to right. -/
theorem C104_arithmetic (p : ℕ) : (leftToRight (roundNearest p)).ExactScaling where
  fl k x := roundNearest_scale p k x
  fl_neg x := roundNearest_neg x
  sum k := (leftToRight_sc (roundNearest_scale p k)).1
  sum_neg l := by simpa using (leftToRight_sc (f := roundNearest p) (e := -1) (fun x => by simpa using roundNearest_neg x)).1 l
  dot k := (leftToRight_sc (roundNearest_scale p k)).2
  dot_neg a b := by simpa using (leftToRight_sc (f := roundNearest p) (e := -1) (fun x => by simpa using roundNearest_neg x)).2 a b
  byProducts := by
    intro a b c d h
    have key : ∀ u v : List ℝ, List.zipWith (fun x y => roundNearest p (x * y)) u v = (List.zipWith (· * ·) u v).map (roundNearest p) := fun u v => by
      rw [List.map_zipWith]
    simp only [leftToRight, key, h]

/-! ### From signs and exponents to factors -/

/-- The sign of an axis. -/
noncomputable def sgn (s : Fin n → Bool) (i : Fin n) : ℝ := if s i then -1 else 1

theorem sgn_sg (h : A.ExactScaling) (s : Fin n → Bool) : Sg A (sgn s) where
  sq i := by unfold sgn; split <;> norm_num
  sc i := by unfold sgn; split; exacts [sc_neg h, sc_one h]

theorem rescale_eq (s : Fin n → Bool) (k : ℤ) (x : E n) : rescale s k x = WithLp.toLp 2 fun i => 2 ^ k * (sgn s i * x i) := by
  unfold rescale sgn
  congr 1; funext i
  split <;> ring

theorem vr_rescale (s : Fin n → Bool) (k : ℤ) (x : E n) : VR (sgn s) (2 ^ k) (arr x) (arr (rescale s k x)) :=
  ⟨x, rfl, by rw [rescale_eq]⟩

theorem vr_iff (s : Fin n → Bool) (k : ℤ) (v w : List ℝ) : VR (sgn s) (2 ^ k) v w ↔ Rescaled s k v w := by
  constructor <;> rintro ⟨x, h, h'⟩ <;> exact ⟨x, h, by rw [h', rescale_eq]⟩

theorem so_rescaled {s : Fin n → Bool} {k : ℤ} {a b : Res (List ℝ)} (h : SameOutcome (VR (sgn s) (2 ^ k)) a b) :
    SameOutcome (Rescaled s k) a b := so_mono h fun _ _ => (vr_iff s k _ _).mp

theorem so_eq {a b : Res ℝ} (h : SameOutcome (SR 1) a b) : SameOutcome (· = ·) a b := so_mono h fun _ _ => sr_eq

theorem rows_rescale (s : Fin n → Bool) (k : ℤ) : ∀ X : List (E n), RowsR (sgn s) (2 ^ k) (rows X) (rows (X.map (rescale s k)))
  | [] => .nil
  | x :: X => .cons (vr_rescale s k x) (rows_rescale s k X)

theorem sgn_two {s : Fin 2 → Bool} : pad (sgn s) 0 * pad (sgn s) 1 = (parity s : ℝ) := by
  simp [pad, sgn, parity, Fin.prod_univ_two]

theorem sgn_two' {s : Fin 2 → Bool} : sgn s 0 * sgn s 1 = (parity s : ℝ) := by
  simp [sgn, parity, Fin.prod_univ_two]

variable {s : Fin n → Bool} {j k m : ℤ}


theorem tr_scaled {t : Tol ℝ} {e : ℝ} : TR e t ⟨t.rel, e * t.abs⟩ := ⟨rfl, rfl⟩

theorem tr0_of {t : Tol ℝ} (h : t.abs = 0) : TR0 t t := ⟨rfl, h, h⟩

/-- C104: vectors.  The first vector is scaled by `2^j`, the second by `2^k`. -/
theorem C104_vector (hA : A.ExactScaling) (s : Fin n → Bool) (j k : ℤ) (x y : E n) :
    Times j (@Vec.norm ℝ (rounded A) (arr x)) (@Vec.norm ℝ (rounded A) (arr (rescale s j x))) ∧
    SameOutcome (Times (j + k)) (@dot ℝ (rounded A) (arr x) (arr y)) (@dot ℝ (rounded A) (arr (rescale s j x)) (arr (rescale s k y))) ∧
    SameOutcome (Rescaled s 0) (@Vec.unit ℝ (rounded A) (arr x)) (@Vec.unit ℝ (rounded A) (arr (rescale s j x))) ∧
    SameOutcome (· = ·) (@Vec.cosineSimilarity ℝ (rounded A) (arr x) (arr y))
      (@Vec.cosineSimilarity ℝ (rounded A) (arr (rescale s j x)) (arr (rescale s k y))) ∧
    SameOutcome (· = ·) (@Vec.angleBetween ℝ (rounded A) (arr x) (arr y))
      (@Vec.angleBetween ℝ (rounded A) (arr (rescale s j x)) (arr (rescale s k y))) ∧
    SameOutcome (Times k) (@Vec.scalarProjection ℝ (rounded A) (arr x) (arr y))
      (@Vec.scalarProjection ℝ (rounded A) (arr (rescale s j x)) (arr (rescale s k y))) ∧
    SameOutcome (Rescaled s k) (@Vec.projectVector ℝ (rounded A) (arr x) (arr y))
      (@Vec.projectVector ℝ (rounded A) (arr (rescale s j x)) (arr (rescale s k y))) ∧
    (∀ t : Tol ℝ, t.abs = 0 →
      SameOutcome (· = ·) (@Vec.isZero ℝ (rounded A) t (arr x)) (@Vec.isZero ℝ (rounded A) t (arr (rescale s j x))) ∧
      SameOutcome (· = ·) (@Vec.isPerpendicular ℝ (rounded A) t (arr x) (arr y))
        (@Vec.isPerpendicular ℝ (rounded A) t (arr (rescale s j x)) (arr (rescale s k y))) ∧
      SameOutcome (· = ·) (@Vec.isParallel ℝ (rounded A) t (arr x) (arr y))
        (@Vec.isParallel ℝ (rounded A) t (arr (rescale s j x)) (arr (rescale s k y)))) := by
  have hs := sgn_sg hA s
  have h1 := sc_one hA
  have hj := sc_pow hA j
  have hk := sc_pow hA k
  have pj : (0 : ℝ) < 2 ^ j := by positivity
  have pk : (0 : ℝ) < 2 ^ k := by positivity
  have vx := vr_rescale s j x
  have vy := vr_rescale s k y
  refine ⟨norm_vr hs hj pj vx, so_mono (dot_vr hs hj hk vx vy) fun a b h => ?_, ?_, so_eq (cosine_vr hs hj pj hk pk vx vy),
    angleBetween_vr hs hj pj hk pk vx vy, scalarProjection_vr hs h1 hj pj hk vx vy, so_rescaled (projectVector_vr hs hj hk vx vy),
    fun t ht => ⟨isZero_vr hs hj pj ((tr0_of ht).tr _) vx, isPerpendicular_vr hs hj pj hk pk ((tr0_of ht).tr _) vx vy,
      isParallel_vr hs h1 hj pj hk pk (tr0_of ht) vx vy⟩⟩
  · rw [Times, zpow_add₀ two_ne_zero]; exact h
  · refine so_rescaled ?_
    rw [zpow_zero]
    exact unit_vr hs hj pj vx

/-- C104: points: differences, distances, centroids, normalisation (scaled by `2^k`). -/
theorem C104_points (hA : A.ExactScaling) (s : Fin n → Bool) (k : ℤ) (x y : E n) (X : List (E n)) (hX : X ≠ []) :
    SameOutcome (Rescaled s k) (@Vec.fromPoints ℝ (rounded A) (arr x) (arr y))
      (@Vec.fromPoints ℝ (rounded A) (arr (rescale s k x)) (arr (rescale s k y))) ∧
    SameOutcome (Times k) (@Pt.distancePoint ℝ (rounded A) (arr x) (arr y))
      (@Pt.distancePoint ℝ (rounded A) (arr (rescale s k x)) (arr (rescale s k y))) ∧
    SameOutcome (Rescaled s k) (@Pts.centroid ℝ (rounded A) (rows X)) (@Pts.centroid ℝ (rounded A) (rows (X.map (rescale s k)))) ∧
    List.Forall₂ (Rescaled s 0) (@Pts.normalizeDistance ℝ (rounded A) (rows X))
      (@Pts.normalizeDistance ℝ (rounded A) (rows (X.map (rescale s k)))) := by
  have hs := sgn_sg hA s
  have h1 := sc_one hA
  have hk := sc_pow hA k
  have pk : (0 : ℝ) < 2 ^ k := by positivity
  refine ⟨so_rescaled (fromPoints_vr hs hk (vr_rescale s k x) (vr_rescale s k y)),
    distancePoint_vr hs hk pk (vr_rescale s k x) (vr_rescale s k y),
    so_rescaled (centroid_vr h1 hs hk (rows_rescale s k X) (by simpa [rows] using hX)), ?_⟩
  have := normalize_vr hs hk pk (rows_rescale s k X)
  exact this.imp fun a b h => (vr_iff s 0 _ _).mp (by rwa [zpow_zero])

/-- C104: a line, its point scaled by `2^k` and its direction by `2^j`: the constructor raises the same exception, or the
methods give the rescaled results.  Absolute tolerances are scaled like the distances they are compared with. -/
theorem C104_line (hA : A.ExactScaling) (s : Fin n → Bool) (j k : ℤ) (p d : E n) :
    SameOutcome (fun L L' => ∀ x : E n,
        SameOutcome (Rescaled s k) (@Line.projectPoint ℝ (rounded A) L (arr x)) (@Line.projectPoint ℝ (rounded A) L' (arr (rescale s k x))) ∧
        SameOutcome (Times k) (@Line.distancePoint ℝ (rounded A) L (arr x)) (@Line.distancePoint ℝ (rounded A) L' (arr (rescale s k x))) ∧
        (∀ t : Tol ℝ, SameOutcome (· = ·) (@Line.containsPoint ℝ (rounded A) t L (arr x))
          (@Line.containsPoint ℝ (rounded A) ⟨t.rel, 2 ^ k * t.abs⟩ L' (arr (rescale s k x)))) ∧
        ∀ X : List (E n), SameOutcome (Times (2 * k)) (@Line.sumSquares ℝ (rounded A) L (rows X))
          (@Line.sumSquares ℝ (rounded A) L' (rows (X.map (rescale s k)))))
      (@Line.new ℝ (rounded A) (arr p) (arr d)) (@Line.new ℝ (rounded A) (arr (rescale s k p)) (arr (rescale s j d))) := by
  have hs := sgn_sg hA s
  have hj := sc_pow hA j
  have hk := sc_pow hA k
  have pj : (0 : ℝ) < 2 ^ j := by positivity
  have pk : (0 : ℝ) < 2 ^ k := by positivity
  refine so_mono (lineNew_vr hs hj pj (vr_rescale s k p) (vr_rescale s j d)) fun L L' hL x => ?_
  have vx := vr_rescale s k x
  refine ⟨so_rescaled (lineProject_vr hs hk hj hL vx), lineDistance_vr hs hk pk hj hL vx,
    fun t => lineContains_vr hs hk pk hj tr_scaled hL vx, fun X => so_mono (sumSquares_vr hk
      (fun x x' hx => lineDistance_vr hs hk pk hj hL hx) (rows_rescale s k X)) fun a b h => ?_⟩
  rw [Times, two_mul, zpow_add₀ two_ne_zero]; exact h

/-- C104: the side of a line in the plane changes sign with the orientation. -/
theorem C104_side_point (hA : A.ExactScaling) (s : Fin 2 → Bool) (j k : ℤ) (p d : E 2) :
    SameOutcome (fun L L' => ∀ x : E 2,
        SameOutcome (fun a b => b = parity s * a) (@Line.sidePoint ℝ (rounded A) L (arr x)) (@Line.sidePoint ℝ (rounded A) L' (arr (rescale s k x))))
      (@Line.new ℝ (rounded A) (arr p) (arr d)) (@Line.new ℝ (rounded A) (arr (rescale s k p)) (arr (rescale s j d))) := by
  have hs := sgn_sg hA s
  have hj := sc_pow hA j
  have hk := sc_pow hA k
  have pj : (0 : ℝ) < 2 ^ j := by positivity
  have pk : (0 : ℝ) < 2 ^ k := by positivity
  refine so_mono (lineNew_vr hs hj pj (vr_rescale s k p) (vr_rescale s j d)) fun L L' hL x => ?_
  refine so_mono (lineSide_vr (sc_one hA) hs hk pk hj pj hL (vr_rescale s k x)) fun a b h => ?_
  unfold SgR at h
  rw [sgn_two] at h
  exact_mod_cast h

/-- C104: two lines: `is_close`, and `intersect_line` without the coplanarity check (which uses an external rank). -/
theorem C104_line_line (ext : NumpyExt ℝ) (hA : A.ExactScaling) (s : Fin n → Bool) (j k m : ℤ) (p d q e : E n) {L M L' M' : Line ℝ}
    (hL : @Line.new ℝ (rounded A) (arr p) (arr d) = .ok L) (hM : @Line.new ℝ (rounded A) (arr q) (arr e) = .ok M)
    (hL' : @Line.new ℝ (rounded A) (arr (rescale s k p)) (arr (rescale s j d)) = .ok L')
    (hM' : @Line.new ℝ (rounded A) (arr (rescale s k q)) (arr (rescale s m e)) = .ok M') {t : Tol ℝ} (ht : t.abs = 0) :
    SameOutcome (· = ·) (@Line.isClose ℝ (rounded A) t L (.line M)) (@Line.isClose ℝ (rounded A) t L' (.line M')) ∧
    SameOutcome (Rescaled s k) (@Line.intersectLine ℝ (rounded A) ext L M false t) (@Line.intersectLine ℝ (rounded A) ext L' M' false t) := by
  have hs := sgn_sg hA s
  have h1 := sc_one hA
  have hj := sc_pow hA j
  have hk := sc_pow hA k
  have hm := sc_pow hA m
  have pj : (0 : ℝ) < 2 ^ j := by positivity
  have pk : (0 : ℝ) < 2 ^ k := by positivity
  have pm : (0 : ℝ) < 2 ^ m := by positivity
  have a := lineNew_vr hs hj pj (vr_rescale s k p) (vr_rescale s j d)
  rw [hL, hL'] at a
  have b := lineNew_vr hs hm pm (vr_rescale s k q) (vr_rescale s m e)
  rw [hM, hM'] at b
  exact ⟨lineClose_vr h1 hs hk pk hj pj hm pm (tr0_of ht) a b,
    so_rescaled (lineIntersect_vr ext h1 hs hk hj pj hm pm (tr0_of ht) a b)⟩

/-- C104: a plane, its point scaled by `2^k` and its normal by `2^j`. -/
theorem C104_plane (hA : A.ExactScaling) (s : Fin n → Bool) (j k : ℤ) (p m : E n) :
    SameOutcome (fun P P' => ∀ x : E n,
        SameOutcome (Rescaled s k) (@Plane.projectPoint ℝ (rounded A) P (arr x)) (@Plane.projectPoint ℝ (rounded A) P' (arr (rescale s k x))) ∧
        SameOutcome (Rescaled s k) (@Plane.projectVector ℝ (rounded A) P (arr x)) (@Plane.projectVector ℝ (rounded A) P' (arr (rescale s k x))) ∧
        SameOutcome (Times k) (@Plane.distancePointSigned ℝ (rounded A) P (arr x)) (@Plane.distancePointSigned ℝ (rounded A) P' (arr (rescale s k x))) ∧
        SameOutcome (Times k) (@Plane.distancePoint ℝ (rounded A) P (arr x)) (@Plane.distancePoint ℝ (rounded A) P' (arr (rescale s k x))) ∧
        SameOutcome (· = ·) (@Plane.sidePoint ℝ (rounded A) P (arr x)) (@Plane.sidePoint ℝ (rounded A) P' (arr (rescale s k x))) ∧
        (∀ t : Tol ℝ, SameOutcome (· = ·) (@Plane.containsPoint ℝ (rounded A) t P (arr x))
          (@Plane.containsPoint ℝ (rounded A) ⟨t.rel, 2 ^ k * t.abs⟩ P' (arr (rescale s k x)))) ∧
        ∀ X : List (E n), SameOutcome (Times (2 * k)) (@Plane.sumSquares ℝ (rounded A) P (rows X))
          (@Plane.sumSquares ℝ (rounded A) P' (rows (X.map (rescale s k)))))
      (@Plane.new ℝ (rounded A) (arr p) (arr m)) (@Plane.new ℝ (rounded A) (arr (rescale s k p)) (arr (rescale s j m))) := by
  have hs := sgn_sg hA s
  have h1 := sc_one hA
  have hj := sc_pow hA j
  have hk := sc_pow hA k
  have pj : (0 : ℝ) < 2 ^ j := by positivity
  have pk : (0 : ℝ) < 2 ^ k := by positivity
  refine so_mono (planeNew_vr hs hj pj (vr_rescale s k p) (vr_rescale s j m)) fun P P' hP x => ?_
  have vx := vr_rescale s k x
  refine ⟨so_rescaled (planeProject_vr hs hk hj hP vx), so_rescaled (planeProjectVector_vr hs hk hj hP vx),
    planeSigned_vr h1 hs hk hj pj hP vx, planeDistance_vr h1 hs hk pk hj pj hP vx, planeSide_vr h1 hs hk pk hj pj hP vx,
    fun t => planeContains_vr h1 hs hk pk hj pj tr_scaled hP vx, fun X => so_mono (sumSquares_vr hk
      (fun x x' hx => planeDistance_vr h1 hs hk pk hj pj hP hx) (rows_rescale s k X)) fun a b h => ?_⟩
  rw [Times, two_mul, zpow_add₀ two_ne_zero]; exact h

/-- C104: a plane and a line; two planes. -/
theorem C104_plane_line (hA : A.ExactScaling) (s : Fin n → Bool) (j k l : ℤ) (p m q d : E n) {P P' : Plane ℝ} {L L' : Line ℝ}
    (hP : @Plane.new ℝ (rounded A) (arr p) (arr m) = .ok P) (hL : @Line.new ℝ (rounded A) (arr q) (arr d) = .ok L)
    (hP' : @Plane.new ℝ (rounded A) (arr (rescale s k p)) (arr (rescale s j m)) = .ok P')
    (hL' : @Line.new ℝ (rounded A) (arr (rescale s k q)) (arr (rescale s l d)) = .ok L') {t : Tol ℝ} (ht : t.abs = 0) :
    SameOutcome (Rescaled s k) (@Plane.intersectLine ℝ (rounded A) t P L) (@Plane.intersectLine ℝ (rounded A) t P' L') ∧
    (l = k → SameOutcome (fun M M' : Line ℝ => Rescaled s k M.point M'.point ∧ Rescaled s k M.direction M'.direction)
      (@Plane.projectLine ℝ (rounded A) t P L) (@Plane.projectLine ℝ (rounded A) t P' L')) := by
  have hs := sgn_sg hA s
  have h1 := sc_one hA
  have hj := sc_pow hA j
  have hk := sc_pow hA k
  have hl := sc_pow hA l
  have pj : (0 : ℝ) < 2 ^ j := by positivity
  have pk : (0 : ℝ) < 2 ^ k := by positivity
  have pl : (0 : ℝ) < 2 ^ l := by positivity
  have a := planeNew_vr hs hj pj (vr_rescale s k p) (vr_rescale s j m)
  rw [hP, hP'] at a
  have b := lineNew_vr hs hl pl (vr_rescale s k q) (vr_rescale s l d)
  rw [hL, hL'] at b
  refine ⟨so_rescaled (planeLine_vr hs hk hj pj hl pl ((tr0_of ht).tr _) a b), ?_⟩
  rintro rfl
  exact so_mono (planeProjectLine_vr h1 hs hk pk hj pj (tr0_of ht) a b) fun M M' h =>
    ⟨(vr_iff s l _ _).mp h.1, (vr_iff s l _ _).mp h.2⟩

theorem C104_plane_plane (hA : A.ExactScaling) (s : Fin n → Bool) (j k l : ℤ) (p m q o : E n) {P P' Q Q' : Plane ℝ}
    (hP : @Plane.new ℝ (rounded A) (arr p) (arr m) = .ok P) (hQ : @Plane.new ℝ (rounded A) (arr q) (arr o) = .ok Q)
    (hP' : @Plane.new ℝ (rounded A) (arr (rescale s k p)) (arr (rescale s j m)) = .ok P')
    (hQ' : @Plane.new ℝ (rounded A) (arr (rescale s k q)) (arr (rescale s l o)) = .ok Q') {t : Tol ℝ} (ht : t.abs = 0) :
    SameOutcome (· = ·) (@Plane.isClose ℝ (rounded A) t P (.plane Q)) (@Plane.isClose ℝ (rounded A) t P' (.plane Q')) := by
  have hs := sgn_sg hA s
  have h1 := sc_one hA
  have hj := sc_pow hA j
  have hk := sc_pow hA k
  have hl := sc_pow hA l
  have pj : (0 : ℝ) < 2 ^ j := by positivity
  have pk : (0 : ℝ) < 2 ^ k := by positivity
  have pl : (0 : ℝ) < 2 ^ l := by positivity
  have a := planeNew_vr hs hj pj (vr_rescale s k p) (vr_rescale s j m)
  rw [hP, hP'] at a
  have b := planeNew_vr hs hl pl (vr_rescale s k q) (vr_rescale s l o)
  rw [hQ, hQ'] at b
  exact planeClose_vr h1 hs hk pk hj pj hl pl (tr0_of ht) a b

/-- Two pairs of points correspond, in the same order. -/
def RescaledPair (s : Fin n → Bool) (k : ℤ) (a b : List ℝ × List ℝ) : Prop := Rescaled s k a.1 b.1 ∧ Rescaled s k a.2 b.2

theorem so_pair {s : Fin n → Bool} {k : ℤ} {a b : Res (List ℝ × List ℝ)} (h : SameOutcome (PairR (sgn s) (2 ^ k)) a b) :
    SameOutcome (RescaledPair s k) a b := so_mono h fun _ _ h => ⟨(vr_iff s k _ _).mp h.1, (vr_iff s k _ _).mp h.2⟩

/-- C104: spheres; the direction of the line may have another scale. -/
theorem C104_sphere (hA : A.ExactScaling) (s : Fin 3 → Bool) (j k : ℤ) (c : E 3) (r : ℝ) :
    SameOutcome (fun C C' =>
        (∀ x : E 3,
          SameOutcome (Times k) (@Sphere.distancePoint ℝ (rounded A) C (arr x)) (@Sphere.distancePoint ℝ (rounded A) C' (arr (rescale s k x))) ∧
          SameOutcome (Rescaled s k) (@Sphere.projectPoint ℝ (rounded A) C (arr x)) (@Sphere.projectPoint ℝ (rounded A) C' (arr (rescale s k x))) ∧
          ∀ t : Tol ℝ, SameOutcome (· = ·) (@Sphere.containsPoint ℝ (rounded A) t C (arr x))
            (@Sphere.containsPoint ℝ (rounded A) ⟨t.rel, 2 ^ k * t.abs⟩ C' (arr (rescale s k x)))) ∧
        ∀ (p d : E 3) (L L' : Line ℝ), @Line.new ℝ (rounded A) (arr p) (arr d) = .ok L →
          @Line.new ℝ (rounded A) (arr (rescale s k p)) (arr (rescale s j d)) = .ok L' →
          SameOutcome (RescaledPair s k) (@Sphere.intersectLine ℝ (rounded A) C L) (@Sphere.intersectLine ℝ (rounded A) C' L'))
      (@Sphere.new ℝ (rounded A) (arr c) r) (@Sphere.new ℝ (rounded A) (arr (rescale s k c)) (2 ^ k * r)) := by
  have hs := sgn_sg hA s
  have h1 := sc_one hA
  have hj := sc_pow hA j
  have hk := sc_pow hA k
  have pj : (0 : ℝ) < 2 ^ j := by positivity
  have pk : (0 : ℝ) < 2 ^ k := by positivity
  refine so_mono (sphereNew_vr pk (vr_rescale s k c) rfl) fun C C' hC => ⟨fun x => ?_, fun p d L L' hL hL' => ?_⟩
  · have vx := vr_rescale s k x
    have hd := baseDistance_vr hs hk pk hC.1 hC.2 vx
    exact ⟨hd, so_rescaled (baseProject_vr h1 hs hk pk hC.1 hC.2 vx), fun t => containsFn_vr hk pk tr_scaled hd⟩
  · have a := lineNew_vr hs hj pj (vr_rescale s k p) (vr_rescale s j d)
    rw [hL, hL'] at a
    exact so_pair (sphereLine_vr h1 hs hk pk hj pj hC a)

/-- C104: circles; the two points of `intersect_circle` may come in the other order. -/
theorem C104_circle (hA : A.ExactScaling) (s : Fin 2 → Bool) (k : ℤ) (c : E 2) (r : ℝ) :
    SameOutcome (fun C C' =>
        (∀ x : E 2,
          SameOutcome (Times k) (@Circle.distancePoint ℝ (rounded A) C (arr x)) (@Circle.distancePoint ℝ (rounded A) C' (arr (rescale s k x))) ∧
          SameOutcome (Rescaled s k) (@Circle.projectPoint ℝ (rounded A) C (arr x)) (@Circle.projectPoint ℝ (rounded A) C' (arr (rescale s k x))) ∧
          ∀ t : Tol ℝ, SameOutcome (· = ·) (@Circle.containsPoint ℝ (rounded A) t C (arr x))
            (@Circle.containsPoint ℝ (rounded A) ⟨t.rel, 2 ^ k * t.abs⟩ C' (arr (rescale s k x)))) ∧
        ∀ (q : E 2) (u : ℝ) (D D' : Circle ℝ), @Circle.new ℝ (rounded A) (arr q) u = .ok D →
          @Circle.new ℝ (rounded A) (arr (rescale s k q)) (2 ^ k * u) = .ok D' →
          SameOutcome (fun a b => RescaledPair s k a b ∨ RescaledPair s k a b.swap)
            (@Circle.intersectCircle ℝ (rounded A) C D) (@Circle.intersectCircle ℝ (rounded A) C' D'))
      (@Circle.new ℝ (rounded A) (arr c) r) (@Circle.new ℝ (rounded A) (arr (rescale s k c)) (2 ^ k * r)) := by
  have hs := sgn_sg hA s
  have h1 := sc_one hA
  have hk := sc_pow hA k
  have pk : (0 : ℝ) < 2 ^ k := by positivity
  refine so_mono (circleNew_vr pk (vr_rescale s k c) rfl) fun C C' hC => ⟨fun x => ?_, fun q u D D' hD hD' => ?_⟩
  · have vx := vr_rescale s k x
    have hd := baseDistance_vr hs hk pk hC.1 hC.2 vx
    exact ⟨hd, so_rescaled (baseProject_vr h1 hs hk pk hC.1 hC.2 vx), fun t => containsFn_vr hk pk tr_scaled hd⟩
  · have a := circleNew_vr (A := A) (r := u) pk (vr_rescale s k q) rfl
    rw [hD, hD'] at a
    exact so_mono (circleCircle_vr h1 (sc_neg hA) hs hk pk hC a) fun x y h => h.imp
      (fun h => ⟨(vr_iff s k _ _).mp h.1, (vr_iff s k _ _).mp h.2⟩) (fun h => ⟨(vr_iff s k _ _).mp h.1, (vr_iff s k _ _).mp h.2⟩)

/-- C104: cylinders. -/
theorem C104_cylinder (hA : A.ExactScaling) (s : Fin 3 → Bool) (j k : ℤ) (p v : E 3) (r : ℝ) :
    SameOutcome (fun C C' =>
        Times k (@Cylinder.length ℝ (rounded A) C) (@Cylinder.length ℝ (rounded A) C') ∧
        (∀ x : E 3, SameOutcome (· = ·) (@Cylinder.isPointWithin ℝ (rounded A) C (arr x)) (@Cylinder.isPointWithin ℝ (rounded A) C' (arr (rescale s k x)))) ∧
        ∀ (q d : E 3) (L L' : Line ℝ) (infinite : Bool), @Line.new ℝ (rounded A) (arr q) (arr d) = .ok L →
          @Line.new ℝ (rounded A) (arr (rescale s k q)) (arr (rescale s j d)) = .ok L' →
          SameOutcome (RescaledPair s k) (@Cylinder.intersectLine ℝ (rounded A) C L none infinite)
            (@Cylinder.intersectLine ℝ (rounded A) C' L' none infinite))
      (@Cylinder.new ℝ (rounded A) (arr p) (arr v) r)
      (@Cylinder.new ℝ (rounded A) (arr (rescale s k p)) (arr (rescale s k v)) (2 ^ k * r)) := by
  have hs := sgn_sg hA s
  have h1 := sc_one hA
  have hj := sc_pow hA j
  have hk := sc_pow hA k
  have pj : (0 : ℝ) < 2 ^ j := by positivity
  have pk : (0 : ℝ) < 2 ^ k := by positivity
  refine so_mono (cylinderNew_vr hs hk pk (vr_rescale s k p) (vr_rescale s k v) rfl) fun C C' hC =>
    ⟨length_vr hs hk pk hC, fun x => within_vr h1 hs hk pk hC (vr_rescale s k x), fun q d L L' inf hL hL' => ?_⟩
  have a := lineNew_vr hs hj pj (vr_rescale s k q) (vr_rescale s j d)
  rw [hL, hL'] at a
  exact so_pair (cylinderLine_vr h1 hs hk pk hj pj hC a inf)

/-- C104: line segments (no coplanarity check). -/
theorem C104_segment (ext : NumpyExt ℝ) (hA : A.ExactScaling) (s : Fin n → Bool) (k : ℤ) (a b : E n) :
    SameOutcome (fun S S' => ∀ t : Tol ℝ, t.abs = 0 →
        (∀ x : E n, SameOutcome (· = ·) (@LineSegment.containsPoint ℝ (rounded A) t S (arr x)) (@LineSegment.containsPoint ℝ (rounded A) t S' (arr (rescale s k x)))) ∧
        ∀ (c d : E n) (R R' : LineSegment ℝ), @LineSegment.new ℝ (rounded A) (arr c) (arr d) = .ok R →
          @LineSegment.new ℝ (rounded A) (arr (rescale s k c)) (arr (rescale s k d)) = .ok R' →
          SameOutcome (Rescaled s k) (@LineSegment.intersectLineSegment ℝ (rounded A) ext S R false t)
            (@LineSegment.intersectLineSegment ℝ (rounded A) ext S' R' false t))
      (@LineSegment.new ℝ (rounded A) (arr a) (arr b)) (@LineSegment.new ℝ (rounded A) (arr (rescale s k a)) (arr (rescale s k b))) := by
  have hs := sgn_sg hA s
  have h1 := sc_one hA
  have hk := sc_pow hA k
  have pk : (0 : ℝ) < 2 ^ k := by positivity
  refine so_mono (segmentNew_vr hs hk pk (vr_rescale s k a) (vr_rescale s k b)) fun S S' hS t ht =>
    ⟨fun x => segmentContains_vr h1 hs hk pk (tr0_of ht) hS (vr_rescale s k x), fun c d R R' hR hR' => ?_⟩
  have q := segmentNew_vr hs hk pk (vr_rescale s k c) (vr_rescale s k d)
  rw [hR, hR'] at q
  exact so_rescaled (segmentIntersect_vr ext h1 hs hk pk (tr0_of ht) hS q)

/-- C104: triangles with given vertices (whether the constructor accepts them is decided by an external rank). -/
theorem C104_triangle (ext : NumpyExt ℝ) (hA : A.ExactScaling) (s : Fin n → Bool) (k : ℤ) (a b c : E n) {T T' : Triangle ℝ}
    (hT : @Triangle.new ℝ (rounded A) ext (arr a) (arr b) (arr c) = .ok T)
    (hT' : @Triangle.new ℝ (rounded A) ext (arr (rescale s k a)) (arr (rescale s k b)) (arr (rescale s k c)) = .ok T') :
    SameOutcome (Times k) (@Triangle.perimeter ℝ (rounded A) T) (@Triangle.perimeter ℝ (rounded A) T') ∧
    SameOutcome (Times (2 * k)) (@Triangle.area ℝ (rounded A) T) (@Triangle.area ℝ (rounded A) T') ∧
    (∀ side, SameOutcome (Times k) (@Triangle.length ℝ (rounded A) T side) (@Triangle.length ℝ (rounded A) T' side)) ∧
    (∀ vertex, SameOutcome (· = ·) (@Triangle.angle ℝ (rounded A) T vertex) (@Triangle.angle ℝ (rounded A) T' vertex)) ∧
    (∀ t : Tol ℝ, t.abs = 0 →
      SameOutcome (· = ·) (@Triangle.classify ℝ (rounded A) t T) (@Triangle.classify ℝ (rounded A) t T') ∧
      SameOutcome (· = ·) (@Triangle.isRight ℝ (rounded A) t T) (@Triangle.isRight ℝ (rounded A) t T') ∧
      SameOutcome (Rescaled s k) (@Triangle.orthocenter ℝ (rounded A) ext T false t) (@Triangle.orthocenter ℝ (rounded A) ext T' false t)) := by
  have hs := sgn_sg hA s
  have h1 := sc_one hA
  have hk := sc_pow hA k
  have pk : (0 : ℝ) < 2 ^ k := by positivity
  have key : ∀ {x y z : List ℝ} {T : Triangle ℝ}, @Triangle.new ℝ (rounded A) ext x y z = .ok T → T = ⟨x, y, z⟩ := fun {x y z T} h => by
    have nn : ∀ {v w : List ℝ}, @new1D ℝ (rounded A) v = .ok w → w = v := fun {v w} h => by
      unfold new1D at h
      split at h
      · simp at h
      · split at h
        · simp at h
        · exact (Except.ok.inj h).symm
    simp only [Triangle.new, bind_ok_iff] at h
    obtain ⟨x', hx, y', hy, z', hz, h⟩ := h
    rw [nn hx, nn hy, nn hz] at h
    split at h
    · simp at h
    · simp only [bind_ok_iff] at h
      obtain ⟨_, _, _, _, h⟩ := h
      split at h
      · simp at h
      · exact (Except.ok.inj h).symm
  have hR : TriR (sgn s) (2 ^ k) T T' := by
    rw [key hT, key hT']
    exact ⟨vr_rescale s k a, vr_rescale s k b, vr_rescale s k c⟩
  refine ⟨perimeter_vr hs hk pk hR, so_mono (triArea_vr h1 hs hk pk hR) fun a b h => ?_, triLength_vr hs hk pk hR,
    triAngle_vr h1 hs hk pk hR, fun t ht => ⟨classify_vr hs hk pk ((tr0_of ht).tr _) hR, isRight_vr hs hk pk ((tr0_of ht).tr _) hR,
      so_rescaled (orthocenter_vr ext h1 hs hk pk (tr0_of ht) hR)⟩⟩
  rw [Times, two_mul, zpow_add₀ two_ne_zero]; exact h

/-- C104: areas and volumes. -/
theorem C104_measurement (hA : A.ExactScaling) (s : Fin n → Bool) (k : ℤ) (a b c d : E n) :
    SameOutcome (Times (2 * k)) (@Measurement.areaTriangle ℝ (rounded A) (arr a) (arr b) (arr c))
      (@Measurement.areaTriangle ℝ (rounded A) (arr (rescale s k a)) (arr (rescale s k b)) (arr (rescale s k c))) ∧
    SameOutcome (Times (3 * k)) (@Measurement.volumeTetrahedron ℝ (rounded A) (arr a) (arr b) (arr c) (arr d))
      (@Measurement.volumeTetrahedron ℝ (rounded A) (arr (rescale s k a)) (arr (rescale s k b)) (arr (rescale s k c)) (arr (rescale s k d))) := by
  have hs := sgn_sg hA s
  have h1 := sc_one hA
  have hk := sc_pow hA k
  have pk : (0 : ℝ) < 2 ^ k := by positivity
  refine ⟨so_mono (areaTriangle_vr h1 hs hk pk (vr_rescale s k a) (vr_rescale s k b) (vr_rescale s k c)) fun x y h => ?_,
    so_mono (volume_vr h1 hs hk pk (vr_rescale s k a) (vr_rescale s k b) (vr_rescale s k c) (vr_rescale s k d)) fun x y h => ?_⟩
  · rw [Times, two_mul, zpow_add₀ two_ne_zero]; exact h
  · rw [Times, show 3 * k = k + (k + k) by ring, zpow_add₀ two_ne_zero, zpow_add₀ two_ne_zero]; exact h

/-- C104: the signed area of a polygon changes sign with the orientation. -/
theorem C104_area_signed (hA : A.ExactScaling) (s : Fin 2 → Bool) (k : ℤ) (X : List (E 2)) :
    SameOutcome (fun a b => b = (parity s : ℝ) * 2 ^ (2 * k) * a) (@Measurement.areaSigned ℝ (rounded A) (rows X))
      (@Measurement.areaSigned ℝ (rounded A) (rows (X.map (rescale s k)))) := by
  refine so_mono (areaSigned_vr (sc_one hA) (sgn_sg hA s) (sc_pow hA k) (rows_rescale s k X)) fun x y h => ?_
  rw [show y = _ from h, sgn_two', two_mul, zpow_add₀ two_ne_zero]

/-- The hypotheses are met: a non-trivial line in binary64 arithmetic, in another unit and seen in a mirror. -/
example : ∃ L L' : Line ℝ,
    @Line.new ℝ (rounded (leftToRight (roundNearest 53))) (arr (vec2 0.1 0.2)) (arr (vec2 1 3)) = .ok L ∧
    @Line.new ℝ (rounded (leftToRight (roundNearest 53))) (arr (rescale ![true, false] 10 (vec2 0.1 0.2))) (arr (rescale ![true, false] (-3) (vec2 1 3))) = .ok L' ∧
    SameOutcome (Times 10) (@Line.distancePoint ℝ (rounded (leftToRight (roundNearest 53))) L (arr (vec2 5 0.7)))
      (@Line.distancePoint ℝ (rounded (leftToRight (roundNearest 53))) L' (arr (rescale ![true, false] 10 (vec2 5 0.7)))) := by
  have hne : vec2 1 3 ≠ 0 := fun h => by
    have := congrArg (fun v : E 2 => v 0) h
    simp [vec2] at this
  have h := C104_line (C104_arithmetic 53) ![true, false] (-3) 10 (vec2 0.1 0.2) (vec2 1 3)
  have hL := ((C73_constructors std53 (by norm_num) (vec2 0.1 0.2) (vec2 1 3)).1 hne).1
  rw [hL] at h
  revert h
  generalize @Line.new ℝ (rounded (leftToRight (roundNearest 53))) (arr (rescale ![true, false] 10 (vec2 0.1 0.2))) _ = r
  intro h
  match r, h with
  | .ok L', h => exact ⟨_, L', hL, rfl, (h (vec2 5 0.7)).2.1⟩

end SkSpatial
