import Verif.Lemmas.NpNum
import Verif.Lemmas.Line
import Verif.Lemmas.Plane
import Verif.Props.Vector
/-!
# Integer arrays: C83 - C85

`Point([1, 2])` is an `int64` array, and the products of its methods are computed modulo `2^64`.  The theorems
say exactly what the methods return on integer arrays, when that is the result of exact arithmetic (so that every
other theorem applies), and exhibit the failures.
-/

namespace SkSpatial
open NpNum
open InnerProductGeometry (angle)

variable {n : ℕ}

theorem ofInts_eq_zero {z : Fin n → ℤ} : ofInts z = 0 ↔ z = 0 := by
  constructor
  · intro h
    funext i
    have := congrArg (fun v : E n => v i) h
    simpa [ofInts] using this
  · rintro rfl
    ext i
    simp [ofInts]

theorem normSq_ofInts (z : Fin n → ℤ) : ‖ofInts z‖ ^ 2 = ((∑ i, z i ^ 2 : ℤ) : ℝ) := by
  rw [← real_inner_self_eq_norm_sq, inner_real]
  simp [pow_two]

theorem sumSq_eq_zero {z : Fin n → ℤ} : ∑ i, z i ^ 2 = 0 ↔ z = 0 := by
  have h := normSq_ofInts z
  rw [← ofInts_eq_zero, ← norm_eq_zero (a := ofInts z), ← pow_eq_zero_iff (a := ‖ofInts z‖) (two_ne_zero), h]
  exact_mod_cast Iff.rfl

theorem sumSq_nonneg (z : Fin n → ℤ) : 0 ≤ ∑ i, z i ^ 2 := Finset.sum_nonneg fun _ _ => pow_two_nonneg _

/-- Coordinates below `2^30` in at most 8 dimensions: the sum of squares fits. -/
theorem sumSq_small {z : Fin n → ℤ} (hn : n ≤ 8) (hz : ∀ i, |z i| < 2 ^ 30) : ∑ i, z i ^ 2 < 2 ^ 63 := by
  have h : ∑ i, z i ^ 2 ≤ ∑ _i : Fin n, (2 ^ 60 - 1 : ℤ) := by
    refine Finset.sum_le_sum fun i _ => ?_
    have h1 := hz i
    have h2 : |z i| ^ 2 < (2 ^ 30) ^ 2 := pow_lt_pow_left₀ h1 (abs_nonneg _) (by norm_num)
    rw [sq_abs] at h2
    omega
  rw [Finset.sum_const, Finset.card_univ, Fintype.card_fin, nsmul_eq_mul] at h
  have : (n : ℤ) ≤ 8 := by exact_mod_cast hn
  nlinarith

/-- `math.isclose` sees only the values of NumPy numbers. -/
theorem isclose_np (tol : Tol NpNum) (x y : NpNum) :
    isclose tol x y = isclose ⟨val tol.rel, val tol.abs⟩ (val x) (val y) := by
  obtain ⟨a, b⟩ := tol
  by_cases h : val x = val y <;> cases a <;> cases b <;> simp [isclose, zero, np_mulif, abs_mul, h] <;>
    congr

/-! ## C83: zero tests and constructors -/

/-- C83: `is_zero()` of an integer vector is `True` iff the sum of the squares is a multiple of `2^64`. -/
theorem C83_is_zero (z : Fin n → ℤ) :
    Vec.isZero Tol.default (ints z) = .ok (decide ((2 ^ 64 : ℤ) ∣ ∑ i, z i ^ 2)) := by
  have h : (∑ i, z i * z i) = ∑ i, z i ^ 2 := by simp [pow_two]
  simp only [Vec.isZero, dot_ints, ok_bind, isclose_zero_int, wrap_eq_zero_iff, h]

/-- C83: so it is right (`True` exactly for the zero vector) whenever the sum of squares is below `2^64`, in
particular for coordinates below `2^30` in up to 8 dimensions. -/
theorem C83_is_zero_exact (z : Fin n → ℤ) (h : ∑ i, z i ^ 2 < 2 ^ 64 ∨ (n ≤ 8 ∧ ∀ i, |z i| < 2 ^ 30)) :
    Vec.isZero Tol.default (ints z) = .ok (decide (z = 0)) := by
  have h : ∑ i, z i ^ 2 < 2 ^ 64 := by
    rcases h with h | ⟨h1, h2⟩
    · exact h
    · exact (sumSq_small h1 h2).trans (by norm_num)
  rw [C83_is_zero]
  congr 1
  rw [decide_eq_decide, ← sumSq_eq_zero]
  constructor
  · intro hd
    exact Int.eq_zero_of_dvd_of_nonneg_of_lt (sumSq_nonneg z) h hd
  · intro h0
    rw [h0]
    exact dvd_zero _

example : ∑ i, (![3000000000, -1, 5] : Fin 3 → ℤ) i ^ 2 < 2 ^ 64 := by
  simp [Fin.sum_univ_three]

/-- C83: the `Line` and `Plane` constructors accept integer data exactly if `2^64` does not divide the sum of the
squares of the vector, and otherwise raise the zero-vector error; the object keeps the integer arrays. -/
theorem C83_constructors [NeZero n] (p v : Fin n → ℤ) :
    (¬ (2 ^ 64 : ℤ) ∣ ∑ i, v i ^ 2 →
      Line.new (ints p) (ints v) = .ok ⟨ints p, ints v⟩ ∧ Plane.new (ints p) (ints v) = .ok ⟨ints p, ints v⟩) ∧
    ((2 ^ 64 : ℤ) ∣ ∑ i, v i ^ 2 →
      Line.new (ints p) (ints v) = .error (.valueError "The vector must not be the zero vector.") ∧
      Plane.new (ints p) (ints v) = .error (.valueError "The vector must not be the zero vector.")) := by
  constructor <;> intro h <;>
    simp only [Line.new, Plane.new, newLinePlane, C83_is_zero, h, new1D_ints, ok_bind] <;> simp

/-- C83: the length of an integer vector is computed in floats and does not overflow. -/
theorem C83_norm (z : Fin n → ℤ) : Vec.norm (ints z) = .flt ‖ofInts z‖ := norm_ints z

/-- C83, defect: `Vector([2**32, 0])` has length `2^32` but `is_zero()` is `True`, and
`Line([0, 0], [2**32, 0])` and `Line.from_points([0, 0], [2**32, 0])` raise "must not be the zero vector". -/
theorem C83_defect :
    Vec.norm (ints ![2 ^ 32, 0]) = .flt (2 ^ 32) ∧
    Vec.isZero Tol.default (ints ![2 ^ 32, 0]) = .ok true ∧
    Line.new (ints ![0, 0]) (ints ![2 ^ 32, 0]) =
      .error (.valueError "The vector must not be the zero vector.") ∧
    Line.fromPoints (ints ![0, 0]) (ints ![2 ^ 32, 0]) =
      .error (.valueError "The vector must not be the zero vector.") := by
  have hd : (2 ^ 64 : ℤ) ∣ ∑ i, (![2 ^ 32, 0] : Fin 2 → ℤ) i ^ 2 := by simp [Fin.sum_univ_two]
  refine ⟨?_, ?_, ((C83_constructors _ _).2 hd).1, ?_⟩
  · rw [C83_norm]
    congr 1
    rw [EuclideanSpace.norm_eq, Fin.sum_univ_two]
    simp [ofInts]
    norm_num
  · rw [C83_is_zero]
    simp only [hd, decide_true]
  · have h1 : (fun i => wrap ((![2 ^ 32, 0] : Fin 2 → ℤ) i - (![0, 0] : Fin 2 → ℤ) i)) = ![2 ^ 32, 0] := by
      funext i
      fin_cases i <;> decide
    simp only [Line.fromPoints, Vec.fromPoints, vsub_ints, h1, ok_bind, new1D_ints]
    exact ((C83_constructors _ _).2 hd).1

/-! ## C84: dot products and angles -/

/-- C84: `dot` of integer vectors is the exact dot product reduced modulo `2^64` to `[-2^63, 2^63)`; it is the
exact dot product iff that fits. -/
theorem C84_dot (z w : Fin n → ℤ) :
    ∃ d : ℤ, dot (ints z) (ints w) = .ok (.int d) ∧ Int64 d ∧ (2 ^ 64 : ℤ) ∣ d - ∑ i, z i * w i ∧
      (d = ∑ i, z i * w i ↔ Int64 (∑ i, z i * w i)) := by
  refine ⟨_, dot_ints z w, fits_wrap _, ?_, wrap_eq_self_iff⟩
  rw [wrap_eq]
  have := Int.bmod_emod (m := 2 ^ 64) (x := ∑ i, z i * w i)
  have h2 := Int.emod_emod_of_dvd
  exact Int.ModEq.dvd (by rw [Int.ModEq]; norm_num at this ⊢; exact this.symm)

/-- C84: `is_perpendicular` of integer vectors is `True` iff the exact dot product is a multiple of `2^64`. -/
theorem C84_is_perpendicular (z w : Fin n → ℤ) :
    Vec.isPerpendicular Tol.default (ints z) (ints w) = .ok (decide ((2 ^ 64 : ℤ) ∣ ∑ i, z i * w i)) := by
  simp only [Vec.isPerpendicular, dot_ints, ok_bind, isclose_zero_int, wrap_eq_zero_iff]

theorem dot_fits {z w : Fin n → ℤ} (hz : ∑ i, z i ^ 2 < 2 ^ 63) (hw : ∑ i, w i ^ 2 < 2 ^ 63) :
    Int64 (∑ i, z i * w i) := by
  have h1 : ∑ i, (z i - w i) ^ 2 = ∑ i, z i ^ 2 - 2 * ∑ i, z i * w i + ∑ i, w i ^ 2 := by
    rw [Finset.mul_sum, ← Finset.sum_sub_distrib, ← Finset.sum_add_distrib]
    exact Finset.sum_congr rfl fun i _ => by ring
  have h2 : ∑ i, (z i + w i) ^ 2 = ∑ i, z i ^ 2 + 2 * ∑ i, z i * w i + ∑ i, w i ^ 2 := by
    rw [Finset.mul_sum, ← Finset.sum_add_distrib, ← Finset.sum_add_distrib]
    exact Finset.sum_congr rfl fun i _ => by ring
  have h3 := sumSq_nonneg (fun i => z i - w i)
  have h4 := sumSq_nonneg (fun i => z i + w i)
  unfold Int64
  omega

theorem cosine_ints [NeZero n] {z w : Fin n → ℤ} (hz : z ≠ 0) (hw : w ≠ 0) (h : Int64 (∑ i, z i * w i)) :
    Vec.cosineSimilarity (ints z) (ints w) = .ok (.flt (cosE (ofInts z) (ofInts w))) := by
  have h1 : ‖ofInts z‖ ≠ 0 := by simpa [ofInts_eq_zero] using hz
  have h2 : ‖ofInts w‖ ≠ 0 := by simpa [ofInts_eq_zero] using hw
  have h3 := abs_le.mp (abs_cosE_le_one (ofInts z) (ofInts w))
  have h4 : ((∑ i, z i * w i : ℤ) : ℝ) / (‖ofInts z‖ * ‖ofInts w‖) = cosE (ofInts z) (ofInts w) := by
    rw [← inner_real]; rfl
  simp only [Vec.cosineSimilarity, new1D_ints, ok_bind, norm_ints, np_mulf, np_eq, np_val_flt, dot_ints, wrap_fits h,
    np_div, np_val_int, h4, pure_ok]
  have h5 : ¬ (‖ofInts z‖ * ‖ofInts w‖ = val zero) := by simp [zero, h1, h2]
  simp [h5, clip, one, not_lt.mpr h3.1, not_lt.mpr h3.2]

/-- C84: if the dot product fits, `cosine_similarity` and `angle_between` of integer vectors are those of exact
arithmetic; for the zero vector they raise. -/
theorem C84_angle [NeZero n] (z w : Fin n → ℤ) (h : Int64 (∑ i, z i * w i)) :
    (z ≠ 0 → w ≠ 0 →
      Vec.cosineSimilarity (ints z) (ints w) = .ok (.flt (Real.cos (angle (ofInts z) (ofInts w)))) ∧
      Vec.angleBetween (ints z) (ints w) = .ok (.flt (angle (ofInts z) (ofInts w)))) ∧
    (z = 0 ∨ w = 0 → Vec.cosineSimilarity (ints z) (ints w) =
        .error (.valueError "The vectors must have non-zero magnitudes.")) := by
  refine ⟨fun hz hw => ?_, fun h0 => ?_⟩
  · have hc := cosine_ints hz hw h
    have h3 := abs_le.mp (abs_cosE_le_one (ofInts z) (ofInts w))
    refine ⟨by rw [hc, cosE_eq_cos], ?_⟩
    simp only [Vec.angleBetween, hc, ok_bind, mathAcos]
    simp [one, not_lt.mpr h3.1, not_lt.mpr h3.2]
    rfl
  · have : ‖ofInts z‖ * ‖ofInts w‖ = 0 := by
      rcases h0 with rfl | rfl <;> simp [ofInts_eq_zero.mpr]
    simp [Vec.cosineSimilarity, this, zero]

example : Int64 (∑ i, (![2 ^ 31, 1] : Fin 2 → ℤ) i * (![2 ^ 31, -7] : Fin 2 → ℤ) i) := by
  simp [Int64, Fin.sum_univ_two]

/-- C84: `is_parallel` of integer vectors is that of exact arithmetic if the sums of squares are below `2^63`. -/
theorem C84_is_parallel [NeZero n] (z w : Fin n → ℤ) (hz : ∑ i, z i ^ 2 < 2 ^ 63) (hw : ∑ i, w i ^ 2 < 2 ^ 63) :
    Vec.isParallel Tol.default (ints z) (ints w) =
      Vec.isParallel Tol.default (arr (ofInts z)) (arr (ofInts w)) := by
  have hz' : ∑ i, z i ^ 2 < 2 ^ 64 := hz.trans (by norm_num)
  have hw' : ∑ i, w i ^ 2 < 2 ^ 64 := hw.trans (by norm_num)
  unfold Vec.isParallel
  rw [C83_is_zero_exact z (.inl hz'), isZero_default_arr]
  by_cases h1 : z = 0
  · simp [h1, ofInts_eq_zero.mpr]
  · by_cases h2 : w = 0
    · simp [h2, ofInts_eq_zero.mpr, C83_is_zero_exact (0 : Fin n → ℤ) (.inl (by simp))]
    · have h3 : ofInts z ≠ 0 := fun h => h1 (ofInts_eq_zero.mp h)
      have h4 : ofInts w ≠ 0 := fun h => h2 (ofInts_eq_zero.mp h)
      simp only [h1, h2, h3, h4, decide_false, ok_bind, new1D_ints, new1D_arr, C83_is_zero_exact w (.inl hw'),
        isZero_default_arr, cosine_ints h1 h2 (dot_fits hz hw), cosineSimilarity_arr h3 h4, isclose_np]
      simp [Tol.default, one, zero]

/-- C84, defect: the angle between `[2**32, 0]` and `[2**31, 0]`, two vectors of the same direction, is computed
as `π`; and `[2**32, 0]` and `[0, 1]` are said to be parallel. -/
theorem C84_defect :
    Vec.cosineSimilarity (ints ![2 ^ 32, 0]) (ints ![2 ^ 31, 0]) = .ok (.flt (-1)) ∧
    Vec.angleBetween (ints ![2 ^ 32, 0]) (ints ![2 ^ 31, 0]) = .ok (.flt Real.pi) ∧
    Vec.isParallel Tol.default (ints ![2 ^ 32, 0]) (ints ![0, 1]) = .ok true := by
  have n1 : ‖ofInts ![2 ^ 32, 0]‖ = 2 ^ 32 := by
    rw [EuclideanSpace.norm_eq, Fin.sum_univ_two]; simp [ofInts]; norm_num
  have n2 : ‖ofInts ![2 ^ 31, 0]‖ = 2 ^ 31 := by
    rw [EuclideanSpace.norm_eq, Fin.sum_univ_two]; simp [ofInts]; norm_num
  have hd : wrap (∑ i, (![2 ^ 32, 0] : Fin 2 → ℤ) i * (![2 ^ 31, 0] : Fin 2 → ℤ) i) = -2 ^ 63 := by decide
  have hc : Vec.cosineSimilarity (ints ![2 ^ 32, 0]) (ints ![2 ^ 31, 0]) = .ok (.flt (-1)) := by
    simp only [Vec.cosineSimilarity, new1D_ints, ok_bind, norm_ints, n1, n2, np_mulf, np_eq, np_val_flt, dot_ints, hd,
      np_div, np_val_int]
    norm_num [zero, clip, one]
  refine ⟨hc, ?_, ?_⟩
  · simp only [Vec.angleBetween, hc, ok_bind, mathAcos]
    norm_num [one]
  · simp only [Vec.isParallel, C83_defect.2.1, ok_bind]
    rfl

/-- C84: `angle_signed` of integer vectors is the angle of the point with the dot product reduced modulo `2^64` and the *exact*
determinant (`np.linalg.det` converts to floats); it is that of exact arithmetic if the dot product fits. -/
theorem C84_angle_signed (z w : Fin 2 → ℤ) :
    (∃ d : ℤ, dot (ints z) (ints w) = .ok (.int d) ∧
      Vec.angleSigned (ints z) (ints w) = .ok (.flt (Complex.arg ⟨d, ((z 0 * w 1 - z 1 * w 0 : ℤ) : ℝ)⟩))) ∧
    (Int64 (∑ i, z i * w i) → ∃ r, Vec.angleSigned (arr (ofInts z)) (arr (ofInts w)) = .ok r ∧
      Vec.angleSigned (ints z) (ints w) = .ok (.flt r)) := by
  have h : ∀ d : ℤ, dot (ints z) (ints w) = .ok (.int d) →
      Vec.angleSigned (ints z) (ints w) = .ok (.flt (Complex.arg ⟨d, ((z 0 * w 1 - z 1 * w 0 : ℤ) : ℝ)⟩)) := by
    intro d hd
    have hl : (ints z).length = 2 := by simp [ints]
    simp only [Vec.angleSigned, new1D_ints, ok_bind, hd, hl]
    simp [ints, List.ofFn_succ, det2]
  refine ⟨⟨_, dot_ints z w, h _ (dot_ints z w)⟩, fun hf => ⟨_, angleSigned_arr _ _, ?_⟩⟩
  rw [h _ (dot_ints z w), wrap_fits hf, inner2]
  simp [ofInts, Fin.sum_univ_two]

/-- `[2**32, 0]` and `[0, 2**32]`: the determinant does not fit into 64 bits, the signed angle is still `π / 2`. -/
example : Vec.angleSigned (ints ![2 ^ 32, 0]) (ints ![0, 2 ^ 32]) = .ok (.flt (Real.pi / 2)) := by
  obtain ⟨d, hd, h⟩ := (C84_angle_signed ![2 ^ 32, 0] ![0, 2 ^ 32]).1
  rw [dot_ints] at hd
  have h0 : d = 0 := by
    have : wrap (∑ i, (![2 ^ 32, 0] : Fin 2 → ℤ) i * (![0, 2 ^ 32] : Fin 2 → ℤ) i) = 0 := by decide
    rw [this] at hd
    simpa using hd.symm
  rw [h, h0]
  congr 2
  have h1 : ∀ y : ℝ, 0 < y → Complex.arg ⟨((0 : ℤ) : ℝ), y⟩ = Real.pi / 2 := by
    intro y hy
    rw [show (⟨((0 : ℤ) : ℝ), y⟩ : ℂ) = (y : ℂ) * Complex.I by apply Complex.ext <;> simp, Complex.arg_real_mul _ hy, Complex.arg_I]
  exact h1 _ (by simp)

/-! ## C85: differences, cross products, distances, areas, projections -/

/-- The difference of two integer points as `int64` computes it. -/
theorem fromPoints_ints [NeZero n] (a b : Fin n → ℤ) :
    Vec.fromPoints (ints a) (ints b) = .ok (ints fun i => wrap (b i - a i)) := by
  simp [Vec.fromPoints]

theorem wrap_fun {f : Fin n → ℤ} (h : ∀ i, Int64 (f i)) : (fun i => wrap (f i)) = f :=
  funext fun i => wrap_fits (h i)

theorem ofInts_sub (a b : Fin n → ℤ) : ofInts (fun i => b i - a i) = ofInts b - ofInts a := by
  ext i
  simp [ofInts]

/-- C85: `Point.distance_point` of integer points is the exact Euclidean distance as soon as every coordinate
difference fits into 64 bits (the squares need not fit). -/
theorem C85_distance_point [NeZero n] (a b : Fin n → ℤ) (h : ∀ i, Int64 (b i - a i)) :
    Pt.distancePoint (ints a) (ints b) = .ok (.flt (dist (ofInts a) (ofInts b))) := by
  simp only [Pt.distancePoint, fromPoints_ints, wrap_fun h, ok_bind, norm_ints, ofInts_sub, pure_ok, dist_comm (ofInts a),
    dist_eq_norm]

example : ∀ i, Int64 ((![2 ^ 61, 7] : Fin 2 → ℤ) i - (![-2 ^ 61, 5] : Fin 2 → ℤ) i) := by
  intro i; fin_cases i <;> simp [Int64]

/-- C85, defect: otherwise it can be as wrong as possible: the two `int64` points that are furthest apart on a
line are at distance 1. -/
theorem C85_distance_defect :
    Pt.distancePoint (ints ![-2 ^ 63]) (ints ![2 ^ 63 - 1]) = .ok (.flt 1) := by
  have h1 : (fun i => wrap ((![2 ^ 63 - 1] : Fin 1 → ℤ) i - (![-2 ^ 63] : Fin 1 → ℤ) i)) = ![-1] := by
    funext i
    fin_cases i
    decide
  simp only [Pt.distancePoint, fromPoints_ints, h1, ok_bind, norm_ints, pure_ok]
  congr 2
  rw [EuclideanSpace.norm_eq]
  simp [ofInts]

theorem ints3 (a b c : ℤ) : ints ![a, b, c] = [.int a, .int b, .int c] := by
  simp [ints, List.ofFn_succ]
theorem ints2 (a b : ℤ) : ints ![a, b] = [.int a, .int b] := by
  simp [ints, List.ofFn_succ]

theorem cross_ints3 (a b c x y z : ℤ) :
    Vec.cross (ints ![a, b, c]) (ints ![x, y, z]) =
      .ok (ints ![wrap (b * z - c * y), wrap (c * x - a * z), wrap (a * y - b * x)]) := by
  simp [Vec.cross, ints3, setDimension, new1D, cross3]

theorem cross_ints2 (a b x y : ℤ) :
    Vec.cross (ints ![a, b]) (ints ![x, y]) = .ok (ints ![0, 0, wrap (a * y - b * x)]) := by
  have h0 : wrap 0 = 0 := by decide
  simp [Vec.cross, ints2, ints3, setDimension, new1D, cross3, zero, h0, List.replicate]

/-- C85: the cross product of integer vectors (2D ones are padded with zero) is the exact one, reduced modulo
`2^64` in every coordinate. -/
theorem C85_cross (a b c x y z : ℤ) :
    Vec.cross (ints ![a, b, c]) (ints ![x, y, z]) =
      .ok (ints ![wrap (b * z - c * y), wrap (c * x - a * z), wrap (a * y - b * x)]) ∧
    Vec.cross (ints ![a, b]) (ints ![x, y]) = .ok (ints ![0, 0, wrap (a * y - b * x)]) :=
  ⟨cross_ints3 a b c x y z, cross_ints2 a b x y⟩

/-- C85: `side_vector` of integer vectors reports the sign of the wrapped cross product: the right side if it
fits. -/
theorem C85_side_vector (a b x y : ℤ) :
    Vec.sideVector (ints ![a, b]) (ints ![x, y]) = .ok (Int.sign (wrap (x * b - y * a))) ∧
    (Int64 (x * b - y * a) →
      Vec.sideVector (ints ![a, b]) (ints ![x, y]) = .ok (Int.sign (x * b - y * a))) := by
  have key : Vec.sideVector (ints ![a, b]) (ints ![x, y]) = .ok (Int.sign (wrap (x * b - y * a))) := by
    have : ∀ i : ℤ, intSign (NpNum.int i) = .ok (Int.sign i) := by
      intro i
      rcases lt_trichotomy i 0 with h | h | h
      · have : ¬ 0 < i := by omega
        simp [intSign, zero, h, this, Int.sign_eq_neg_one_of_neg h]
      · simp [intSign, zero, h]
      · simp [intSign, zero, h, Int.sign_eq_one_of_pos h]
    simp [Vec.sideVector, ints2, setDimension, new1D, cross3, List.replicate, this]
  exact ⟨key, fun h => by rw [key, wrap_fits h]⟩

/-- C85, defect: `Vector([0, 2**32]).side_vector([2**31, 0])` is on the right, but `-1` (left) is returned. -/
theorem C85_side_defect :
    Vec.sideVector (ints ![0, 2 ^ 32]) (ints ![2 ^ 31, 0]) = .ok (-1) ∧
    Vec.sideVector (arr (ofInts ![0, 2 ^ 32])) (arr (ofInts ![2 ^ 31, 0])) = .ok 1 := by
  refine ⟨?_, ?_⟩
  · rw [(C85_side_vector 0 (2 ^ 32) (2 ^ 31) 0).1]
    congr 1
  · simp [Vec.sideVector, arr2, setDimension, new1D, cross3, List.replicate, ofInts, intSign]

/-- C85: `area_triangle` of 2D integer points is half the absolute value of the wrapped determinant; exact if the
coordinate differences and the determinant fit. -/
theorem C85_area_triangle (a b c : Fin 2 → ℤ) (hb : ∀ i, Int64 (b i - a i)) (hc : ∀ i, Int64 (c i - a i)) :
    Measurement.areaTriangle (ints a) (ints b) (ints c) = .ok (.flt (1 / 2 *
      |(wrap ((b 0 - a 0) * (c 1 - a 1) - (b 1 - a 1) * (c 0 - a 0)) : ℝ)|)) ∧
    (Int64 ((b 0 - a 0) * (c 1 - a 1) - (b 1 - a 1) * (c 0 - a 0)) →
      ∃ s : ℝ, Measurement.areaTriangle (arr (ofInts a)) (arr (ofInts b)) (arr (ofInts c)) = .ok s ∧
        Measurement.areaTriangle (ints a) (ints b) (ints c) = .ok (.flt s)) := by
  have e : ∀ f : Fin 2 → ℤ, f = ![f 0, f 1] := fun f => by funext i; fin_cases i <;> rfl
  have hn : ∀ d : ℤ, ‖ofInts ![0, 0, d]‖ = |(d : ℝ)| := fun d => by
    rw [EuclideanSpace.norm_eq, Fin.sum_univ_three]
    simp [ofInts, Real.sqrt_sq_eq_abs]
  have key : Measurement.areaTriangle (ints a) (ints b) (ints c) = .ok (.flt (1 / 2 *
      |(wrap ((b 0 - a 0) * (c 1 - a 1) - (b 1 - a 1) * (c 0 - a 0)) : ℝ)|)) := by
    simp only [Measurement.areaTriangle, fromPoints_ints, wrap_fun hb, wrap_fun hc, ok_bind]
    rw [e fun i => b i - a i, e fun i => c i - a i]
    simp only [cross_ints2, ok_bind, norm_ints, hn]
    simp [half]
  refine ⟨key, fun h => ?_⟩
  refine ⟨_, ?_, key⟩
  rw [wrap_fits h]
  have h23 : 2 ≤ 3 := by norm_num
  simp only [Measurement.areaTriangle, fromPoints_arr, ok_bind, cross_arr h23 h23, norm_arr,
    pure_ok, half_real, mul_real]
  congr 2
  rw [EuclideanSpace.norm_eq, Fin.sum_univ_three]
  simp [crossE, vec3, padTo, ofInts, Real.sqrt_sq_eq_abs]

/-- C85, defect: the triangle (0, 0), (2^32, 0), (0, 2^32) of area `2^63` has area 0. -/
theorem C85_area_defect :
    Measurement.areaTriangle (ints ![0, 0]) (ints ![2 ^ 32, 0]) (ints ![0, 2 ^ 32]) = .ok (.flt 0) := by
  have h1 : ∀ i, Int64 ((![2 ^ 32, 0] : Fin 2 → ℤ) i - (![0, 0] : Fin 2 → ℤ) i) := by
    intro i; fin_cases i <;> simp [Int64]
  have h2 : ∀ i, Int64 ((![0, 2 ^ 32] : Fin 2 → ℤ) i - (![0, 0] : Fin 2 → ℤ) i) := by
    intro i; fin_cases i <;> simp [Int64]
  rw [(C85_area_triangle _ _ _ h1 h2).1]
  have : wrap (((![2 ^ 32, 0] : Fin 2 → ℤ) 0 - (![0, 0] : Fin 2 → ℤ) 0) *
      ((![0, 2 ^ 32] : Fin 2 → ℤ) 1 - (![0, 0] : Fin 2 → ℤ) 1) -
      ((![2 ^ 32, 0] : Fin 2 → ℤ) 1 - (![0, 0] : Fin 2 → ℤ) 1) *
      ((![0, 2 ^ 32] : Fin 2 → ℤ) 0 - (![0, 0] : Fin 2 → ℤ) 0)) = 0 := by decide
  rw [this]
  simp

/-- C85, defect: a tetrahedron of three edges of length `2^21` has a negative volume (`abs` of the smallest
`int64` is negative). -/
theorem C85_volume_defect :
    Measurement.volumeTetrahedron (ints ![0, 0, 0]) (ints ![2 ^ 21, 0, 0]) (ints ![0, 2 ^ 21, 0])
      (ints ![0, 0, 2 ^ 21]) = .ok (.flt (1 / 6 * (-2 ^ 63))) := by
  have h : ∀ a b c : ℤ, Int64 a → Int64 b → Int64 c →
      (fun i => wrap ((![a, b, c] : Fin 3 → ℤ) i - (![0, 0, 0] : Fin 3 → ℤ) i)) = ![a, b, c] := by
    intro a b c ha hb hc
    funext i
    fin_cases i <;> simp [wrap_fits, ha, hb, hc]
  have w : ∀ i : ℤ, i = 0 ∨ i = 2 ^ 21 → Int64 i := by
    rintro i (rfl | rfl) <;> simp [Int64]
  simp only [Measurement.volumeTetrahedron, fromPoints_ints, h _ _ _ (w (2 ^ 21) (.inr rfl)) (w 0 (.inl rfl)) (w 0 (.inl rfl)),
    h _ _ _ (w 0 (.inl rfl)) (w (2 ^ 21) (.inr rfl)) (w 0 (.inl rfl)),
    h _ _ _ (w 0 (.inl rfl)) (w 0 (.inl rfl)) (w (2 ^ 21) (.inr rfl)), ok_bind, cross_ints3]
  have hs : setDimension 3 (ints ![2 ^ 21, 0, 0]) = .ok (ints ![2 ^ 21, 0, 0]) := by
    simp [setDimension]
  have hd : wrap (∑ i, (![2 ^ 21, 0, 0] : Fin 3 → ℤ) i * (![wrap (2 ^ 21 * 2 ^ 21 - 0 * 0), wrap (0 * 0 - 0 * 2 ^ 21),
      wrap (0 * 0 - 2 ^ 21 * 0)] : Fin 3 → ℤ) i) = -2 ^ 63 := by decide
  have ha : wrap |(-2 ^ 63 : ℤ)| = -2 ^ 63 := by decide
  simp only [hs, ok_bind, dot_ints, hd, np_abs, ha]
  simp
  norm_num

theorem newLine_ints [NeZero n] {p v : Fin n → ℤ} {L : Line NpNum} (h : Line.new (ints p) (ints v) = .ok L) :
    L = ⟨ints p, ints v⟩ ∧ v ≠ 0 := by
  by_cases hd : (2 ^ 64 : ℤ) ∣ ∑ i, v i ^ 2
  · rw [((C83_constructors p v).2 hd).1] at h
    cases h
  · rw [((C83_constructors p v).1 hd).1] at h
    refine ⟨by cases h; rfl, ?_⟩
    rintro rfl
    simp at hd

theorem newPlane_ints [NeZero n] {p v : Fin n → ℤ} {P : Plane NpNum} (h : Plane.new (ints p) (ints v) = .ok P) :
    P = ⟨ints p, ints v⟩ ∧ v ≠ 0 := by
  by_cases hd : (2 ^ 64 : ℤ) ∣ ∑ i, v i ^ 2
  · rw [((C83_constructors p v).2 hd).2] at h
    cases h
  · rw [((C83_constructors p v).1 hd).2] at h
    refine ⟨by cases h; rfl, ?_⟩
    rintro rfl
    simp at hd

theorem vadd_if (z : Fin n → ℤ) (x : E n) : vadd (ints z) (floats x) = .ok (floats (ofInts z + x)) := by
  simp only [vadd, broadcast2, length_ints, length_floats, if_true]
  congr 1
  apply List.ext_getElem <;> simp [ints, floats, ofInts]

theorem smul_fi (t : ℝ) (z : Fin n → ℤ) : smul (.flt t) (ints z) = floats (t • ofInts z) := by
  apply List.ext_getElem <;> simp [smul, ints, floats, ofInts]

theorem sdiv_fi (t : ℝ) (z : Fin n → ℤ) : sdiv (ints z) (.flt t) = floats (t⁻¹ • ofInts z) := by
  apply List.ext_getElem <;> simp [sdiv, ints, floats, ofInts, div_eq_inv_mul]

theorem toFloats_floats (x : E n) : toFloats (floats x) = floats x := by
  apply List.ext_getElem <;> simp [toFloats, floats]

theorem norm_floats (x : E n) : Vec.norm (floats x) = .flt ‖x‖ := by
  simp only [Vec.norm, normv, toFloats_floats, np_sqrt, val_dotv_floats]
  rw [norm_eq_sqrt_real_inner]

/-- C85: `line.project_point` and `line.distance_point` of integer data are those of exact arithmetic if the
coordinate differences, the dot product of the direction with the difference and the squared length of the
direction fit. -/
theorem C85_line_project [NeZero n] (p v x : Fin n → ℤ) (L : Line NpNum) (hL : Line.new (ints p) (ints v) = .ok L)
    (h1 : ∀ i, Int64 (x i - p i)) (h2 : Int64 (∑ i, v i * (x i - p i))) (h3 : Int64 (∑ i, v i ^ 2)) :
    ∃ (M : Line ℝ) (q : E n), Line.new (arr (ofInts p)) (arr (ofInts v)) = .ok M ∧
      Line.projectPoint M (arr (ofInts x)) = .ok (arr q) ∧
      Line.projectPoint L (ints x) = .ok (floats q) := by
  obtain ⟨rfl, hv⟩ := newLine_ints hL
  have hv' : ofInts v ≠ 0 := fun h => hv (ofInts_eq_zero.mp h)
  refine ⟨⟨arr (ofInts p), arr (ofInts v)⟩, footE (ofInts p) (ofInts v) (ofInts x), ?_,
    Line.projectPoint_arr _ _ _, ?_⟩
  · simp [Line.new, newLinePlane_arr _ hv']
  · have h3' : Int64 (∑ i, v i * v i) := by simpa [pow_two] using h3
    simp only [Line.projectPoint, fromPoints_ints, wrap_fun h1, ok_bind, Vec.projectVector, dot_ints, wrap_fits h2,
      wrap_fits h3', np_div, np_val_int, pure_ok, smul_fi, vadd_if]
    rw [← inner_real v v, real_inner_self_eq_norm_sq, ← inner_real v (fun i => x i - p i), ofInts_sub]
    rfl

example : ∃ L, Line.new (ints ![1, 2]) (ints ![3, 4]) = .ok L ∧
    (∀ i, Int64 ((![10, 20] : Fin 2 → ℤ) i - (![1, 2] : Fin 2 → ℤ) i)) ∧
    Int64 (∑ i, (![3, 4] : Fin 2 → ℤ) i * ((![10, 20] : Fin 2 → ℤ) i - (![1, 2] : Fin 2 → ℤ) i)) ∧
    Int64 (∑ i, (![3, 4] : Fin 2 → ℤ) i ^ 2) := by
  refine ⟨_, ((C83_constructors _ _).1 ?_).1, ?_, ?_, ?_⟩
  · decide
  · intro i; fin_cases i <;> simp [Int64]
  · simp [Int64, Fin.sum_univ_two]
  · simp [Int64, Fin.sum_univ_two]

/-- C85: `plane.distance_point_signed` (hence `distance_point` and `side_point`) of integer data is that of exact
arithmetic as soon as the coordinate differences fit, however large the normal is. -/
theorem C85_plane_distance [NeZero n] (p v x : Fin n → ℤ) (P : Plane NpNum) (hP : Plane.new (ints p) (ints v) = .ok P)
    (h1 : ∀ i, Int64 (x i - p i)) :
    ∃ (M : Plane ℝ) (d : ℝ), Plane.new (arr (ofInts p)) (arr (ofInts v)) = .ok M ∧
      Plane.distancePointSigned M (arr (ofInts x)) = .ok d ∧
      (∃ e, Plane.distancePointSigned P (ints x) = .ok e ∧ val e = d) := by
  obtain ⟨rfl, hv⟩ := newPlane_ints hP
  have hv' : ofInts v ≠ 0 := fun h => hv (ofInts_eq_zero.mp h)
  refine ⟨⟨arr (ofInts p), arr (ofInts v)⟩, _, ?_, Plane.distancePointSigned_arr _ _ hv', ?_⟩
  · simp [Plane.new, newLinePlane_arr _ hv']
  · have hu : Vec.unit (ints v) = .ok (floats (‖ofInts v‖⁻¹ • ofInts v)) := by
      simp only [Vec.unit, norm_ints, np_eq, np_val_flt, zero, np_ofInt, np_val_int, sdiv_fi]
      simp [hv']
    have hdot : ∀ (y : E n) (z : Fin n → ℤ), ∃ e, dot (floats y) (ints z) = .ok e ∧ val e = inner ℝ y (ofInts z) := by
      intro y z
      refine ⟨dotv (floats y) (ints z), by simp [dot], ?_⟩
      rw [← val_dotv_floats]
      congr 1
      have : List.zipWith PyNum.mul (floats y) (ints z) = List.zipWith PyNum.mul (floats y) (floats (ofInts z)) := by
        apply List.ext_getElem <;> simp [floats, ints, ofInts]
      simp only [dotv_np, this]
    obtain ⟨e, he, hve⟩ := hdot (‖ofInts v‖⁻¹ • ofInts v) (fun i => x i - p i)
    refine ⟨e, ?_, ?_⟩
    · simp only [Plane.distancePointSigned, fromPoints_ints, wrap_fun h1, ok_bind, Vec.scalarProjection, hu, he]
    · rw [hve, ofInts_sub]
      exact real_inner_comm _ _

end SkSpatial

namespace SkSpatial
open NpNum

theorem fin_prev {m : ℕ} (i : Fin (m + 3)) :
    ((i - 1 : Fin (m + 3)) : ℕ) = if (i : ℕ) = 0 then m + 3 - 1 else (i : ℕ) - 1 := by
  rcases Nat.eq_zero_or_pos (i : ℕ) with h | h
  · have : i = 0 := Fin.ext h
    subst this
    simp
  · have : (1 : Fin (m + 3)) ≤ i := by
      rw [Fin.le_def]
      exact h
    rw [Fin.sub_val_of_le this]
    simp [Nat.pos_iff_ne_zero.mp h]

/-- C85: `area_signed` of an integer polygon is half the exact shoelace sum reduced modulo `2^64`: exact if the sum
fits, no matter whether its terms do. -/
theorem C85_area_signed {m : ℕ} (x y : Fin (m + 3) → ℤ) :
    Measurement.areaSigned (List.ofFn fun i => ints ![x i, y i]) =
      .ok (.flt (1 / 2 * (wrap (∑ i, (x (i - 1) * y i - x i * y (i - 1))) : ℝ))) := by
  have hnew : newPoints (List.ofFn fun i => ints ![x i, y i]) = .ok (List.ofFn fun i => ints ![x i, y i]) := by
    simp [newPoints, List.ofFn_succ]
  have hdim : rowDim (List.ofFn fun i => ints ![x i, y i]) = 2 := by
    simp [rowDim, List.ofFn_succ]
  have hX : column (List.ofFn fun i => ints ![x i, y i]) 0 = List.ofFn fun i => NpNum.int (x i) := by
    simp [column, List.map_ofFn, Function.comp_def, ints2]
  have hY : column (List.ofFn fun i => ints ![x i, y i]) 1 = List.ofFn fun i => NpNum.int (y i) := by
    simp [column, List.map_ofFn, Function.comp_def, ints2]
  have hget : ∀ (f : Fin (m + 3) → ℤ) (i : Fin (m + 3)),
      (List.ofFn fun i => NpNum.int (f i)).getD (i : ℕ) zero = .int (f i) := by
    intro f i
    rw [List.getD_eq_getElem?_getD, List.getElem?_eq_getElem (by rw [List.length_ofFn]; exact i.2), List.getElem_ofFn]
    rfl
  have hsum : ((List.range (m + 3)).map fun i =>
      (List.ofFn fun i => NpNum.int (x i)).getD (if i = 0 then m + 3 - 1 else i - 1) zero *.
        (List.ofFn fun i => NpNum.int (y i)).getD i zero -.
      (List.ofFn fun i => NpNum.int (x i)).getD i zero *.
        (List.ofFn fun i => NpNum.int (y i)).getD (if i = 0 then m + 3 - 1 else i - 1) zero) =
      (List.ofFn fun i : Fin (m + 3) => wrap (x (i - 1) * y i - x i * y (i - 1))).map NpNum.int := by
    apply List.ext_getElem
    · simp
    · intro k h1 h2
      have hk : k < m + 3 := by simpa using h1
      have hg1 := hget x (⟨k, hk⟩ - 1)
      have hg2 := hget y ⟨k, hk⟩
      have hg3 := hget x ⟨k, hk⟩
      have hg4 := hget y (⟨k, hk⟩ - 1)
      rw [fin_prev] at hg1 hg4
      simp only at hg1 hg2 hg3 hg4
      rw [List.getElem_map, List.getElem_range, hg1, hg2, hg3, hg4, List.getElem_map, List.getElem_ofFn]
      simp only [np_mul, np_sub, wrap_sub_wrap]
  simp only [Measurement.areaSigned, hnew, ok_bind, hdim, List.length_ofFn, hX, hY, hsum, np_sumL, List.sum_ofFn]
  have hw : ∀ (f : Fin (m + 3) → ℤ), wrap (∑ i, wrap (f i)) = wrap (∑ i, f i) := by
    intro f
    have : ∀ s : Finset (Fin (m + 3)), wrap (∑ i ∈ s, wrap (f i)) = wrap (∑ i ∈ s, f i) := by
      intro s
      induction s using Finset.cons_induction with
      | empty => simp
      | cons a s ha ih =>
        rw [Finset.sum_cons, Finset.sum_cons, wrap_wrap_add, ← wrap_add_wrap', ih, wrap_add_wrap']
    exact this _
  rw [hw]
  simp [half]

/-- C85, defect: the triangle (0, 0), (2^32, 0), (0, 2^32) has signed area 0. -/
theorem C85_area_signed_defect :
    Measurement.areaSigned [ints ![0, 0], ints ![2 ^ 32, 0], ints ![0, 2 ^ 32]] = .ok (.flt 0) := by
  have h := C85_area_signed (m := 0) ![0, 2 ^ 32, 0] ![0, 0, 2 ^ 32]
  have hw : wrap (∑ i : Fin (0 + 3), ((![0, 2 ^ 32, 0] : Fin 3 → ℤ) (i - 1) * (![0, 0, 2 ^ 32] : Fin 3 → ℤ) i -
      (![0, 2 ^ 32, 0] : Fin 3 → ℤ) i * (![0, 0, 2 ^ 32] : Fin 3 → ℤ) (i - 1))) = 0 := by decide
  rw [hw] at h
  simpa [List.ofFn_succ] using h

end SkSpatial
