import Verif.Props.BestFitRounded2
import Verif.Props.RankRounded2
/-!
# C106: two points that are not collinear

In binary64 arithmetic two points can be judged not collinear, and `Plane.best_fit` then accepts them.
-/

namespace SkSpatial
open Finset StdRounding

variable {u η : ℝ}

theorem two_matrix_rank [NumpyExt ℝ] [hS : StableNumpy η] (hη : η ≤ 1 / 100) :
    2 ≤ NumpyExt.matrixRank (none : Option ℝ) (rows [vec3 0 (-(1 / 2)) 0, vec3 2 (1 / 2) 0]) := by
  have hη0 := hS.nonneg
  obtain ⟨C, hC⟩ : ∃ C : Fin 2 → E 3, C = ![vec3 0 (-(1 / 2)) 0, vec3 2 (1 / 2) 0] := ⟨_, rfl⟩
  have hlist : [vec3 0 (-(1 / 2)) 0, vec3 2 (1 / 2) 0] = List.ofFn C := by
    rw [hC]; simp [List.ofFn_succ]
  rw [hlist]
  have hf : fnorm C ≤ 3 := by
    refine le_of_sq_le_sq ?_ (by norm_num)
    rw [fnorm_sq, hC]
    simp only [Fin.sum_univ_two, Matrix.cons_val, norm_sq3]
    simp only [vec3, PiLp.toLp_apply, Matrix.cons_val]
    norm_num
  obtain ⟨t, s', hs0, -, ht, h1, ⟨y, hy, h2⟩, h3⟩ := rank_core (η := η) (by norm_num) (by norm_num) C C none (δ := 0)
    (by simp only [sub_self]; exact (congrArg norm (WithLp.toLp_zero 2)).trans_le (by simp)) hf
  have h4 : s' ≤ 3 + 3 * η := by
    have e1 := rootSpread_le C 0 y
    have e2 : (WithLp.toLp 2 fun i => C i - (0 : Fin 2 → E 3) i : PiLp 2 fun _ : Fin 2 => E 3) = WithLp.toLp 2 C := by
      congr 1; funext i; simp
    rw [e2, hy, mul_one] at e1
    simp only [Pi.zero_apply, inner_zero_left, ne_eq, OfNat.ofNat_ne_zero, not_false_eq_true, zero_pow, sum_const_zero,
      Real.sqrt_zero, zero_add] at e1
    have := e1.trans hf
    linarith
  have ht' := ht rfl
  have hκ : s' * (max 2 3 : ℕ) * (2 : ℝ)⁻¹ ^ 52 ≤ 1 / 100 := by
    calc s' * (max 2 3 : ℕ) * (2 : ℝ)⁻¹ ^ 52 ≤ 4 * (max 2 3 : ℕ) * (2 : ℝ)⁻¹ ^ 52 := by
          refine mul_le_mul_of_nonneg_right (mul_le_mul_of_nonneg_right ?_ (by positivity)) (by positivity)
          linarith
      _ ≤ _ := by norm_num
  have hκ0 : 0 ≤ s' * (max 2 3 : ℕ) * (2 : ℝ)⁻¹ ^ 52 := by positivity
  obtain ⟨κ, hk⟩ : ∃ κ, κ = s' * (max 2 3 : ℕ) * (2 : ℝ)⁻¹ ^ 52 := ⟨_, rfl⟩
  rw [← hk] at ht' hκ hκ0
  rw [abs_le] at ht'
  have ht0 : 0 ≤ t := by nlinarith
  have htau : t + (η * (3 + 0) + 0) ≤ 1 / 10 := by nlinarith
  have hfr : Module.finrank ℝ (Submodule.span ℝ {(EuclideanSpace.single 2 1 : E 3)})ᗮ = 2 := by
    haveI : Fact (Module.finrank ℝ (E 3) = 2 + 1) := ⟨by simp⟩
    exact Submodule.finrank_orthogonal_span_singleton (by simp)
  have := (h3 ht0).1 (Submodule.span ℝ {(EuclideanSpace.single 2 1 : E 3)})ᗮ fun x hxU hx0 => ?_
  · rw [hfr] at this
    exact this
  have hx2 : x 2 = 0 := by
    have := (Submodule.mem_orthogonal _ _).mp hxU _ (Submodule.mem_span_singleton_self _)
    simpa [EuclideanSpace.inner_single_left] using this
  obtain ⟨τ, hτ⟩ : ∃ τ, τ = t + (η * (3 + 0) + 0) := ⟨_, rfl⟩
  have hτ0 : 0 ≤ τ := by rw [hτ]; positivity
  rw [← hτ] at htau ⊢
  have e : ∑ i, (inner ℝ (C i) x : ℝ) ^ 2 = 1 / 4 * x 1 ^ 2 + (2 * x 0 + 1 / 2 * x 1) ^ 2 := by
    rw [hC]
    simp only [Fin.sum_univ_two, Matrix.cons_val, inner3]
    simp only [vec3, PiLp.toLp_apply, Matrix.cons_val]
    ring
  rw [e, norm_sq3, hx2]
  have hτ2 : τ ^ 2 ≤ 1 / 100 := by nlinarith
  have hne : 0 < x 0 ^ 2 + x 1 ^ 2 := by
    by_contra hcon
    have a0 : x 0 ^ 2 = 0 := by nlinarith [sq_nonneg (x 0), sq_nonneg (x 1)]
    have a1 : x 1 ^ 2 = 0 := by nlinarith [sq_nonneg (x 0), sq_nonneg (x 1)]
    apply hx0
    ext i
    fin_cases i
    · simpa using a0
    · simpa using a1
    · simpa using hx2
  have s1 := mul_le_mul_of_nonneg_right hτ2 hne.le
  nlinarith [sq_nonneg (x 0 * 3 + x 1), sq_nonneg (x 0 + x 1), sq_nonneg (4 * x 0 + x 1)]

/-- The two points of the example. -/
noncomputable def farPair : List (E 3) := [vec3 9007199254740992 0 0, vec3 9007199254740994 1 0]

theorem arr_vec3 (x y z : ℝ) : arr (vec3 x y z) = [x, y, z] := by simp [arr, vec3, List.ofFn_succ]

theorem farPair_rank [ext : NumpyExt ℝ] [hS : StableNumpy η] (hη : η ≤ 1 / 100) :
    ∃ r, @Pts.affineRank ℝ (rounded (leftToRight (roundNearest 53))) ext none (rows farPair) = .ok r ∧ 2 ≤ r := by
  have r0 : roundNearest 53 (9007199254740992) = 9007199254740992 := by
    refine rn53 53 4503599627370496 ?_ ?_ ?_ ?_ ?_ <;> norm_num
  have r1 : roundNearest 53 (18014398509481986) = 18014398509481984 := by
    refine rn53_tie 54 4503599627370496 (by decide) ?_ ?_ ?_ ?_ ?_ <;> norm_num
  have r3 : roundNearest 53 (1) = 1 := by
    refine rn53 0 4503599627370496 ?_ ?_ ?_ ?_ ?_ <;> norm_num
  have r4 : roundNearest 53 (1 / 2) = 1 / 2 := by
    refine rn53 (-1) 4503599627370496 ?_ ?_ ?_ ?_ ?_ <;> norm_num
  have r5 : roundNearest 53 (-1 / 2) = -1 / 2 := by
    refine rn53_neg (-1) 4503599627370496 ?_ ?_ ?_ ?_ ?_ <;> norm_num
  have r6 : roundNearest 53 (2) = 2 := by
    refine rn53 1 4503599627370496 ?_ ?_ ?_ ?_ ?_ <;> norm_num
  have hrank := two_matrix_rank (η := η) hη
  have hu : @Pts.unique ℝ (rounded (leftToRight (roundNearest 53))) (rows farPair) = .ok (rows farPair) := by
    simp only [farPair, rows, List.map_cons, List.map_nil, arr_vec3]
    norm_num [Pts.unique, npUnique, insertRow, rowEq, rowLt, newPoints, eq_rd, lt_rd, isFinite_rd]
  have hc : @Pts.centroid ℝ (rounded (leftToRight (roundNearest 53))) (rows farPair) =
      .ok (arr (vec3 9007199254740992 (1 / 2) 0)) := by
    have : @Pts.colMeans ℝ (rounded (leftToRight (roundNearest 53))) [[9007199254740992, 0, 0], [9007199254740994, 1, 0]] =
        [roundNearest 53 (roundNearest 53 (roundNearest 53 (0 + 9007199254740992) + 9007199254740994) / ((2 : ℤ) : ℝ)),
         roundNearest 53 (roundNearest 53 (roundNearest 53 (0 + 0) + 1) / ((2 : ℤ) : ℝ)),
         roundNearest 53 (roundNearest 53 (roundNearest 53 (0 + 0) + 0) / ((2 : ℤ) : ℝ))] := rfl
    simp only [farPair, rows, List.map_cons, List.map_nil, arr_vec3, Pts.centroid, this]
    norm_num [r0, r1, r3, r4, roundNearest_zero, new1D, isFinite_rd]
  have hsub : ∀ x y z x' y' z' : ℝ, @vsub ℝ (rounded (leftToRight (roundNearest 53))) [x, y, z] [x', y', z'] =
      .ok [roundNearest 53 (x - x'), roundNearest 53 (y - y'), roundNearest 53 (z - z')] := fun _ _ _ _ _ _ => rfl
  have hm : @Pts.meanCenter ℝ (rounded (leftToRight (roundNearest 53))) (rows farPair) =
      .ok (rows [vec3 0 (-(1 / 2)) 0, vec3 2 (1 / 2) 0], arr (vec3 9007199254740992 (1 / 2) 0)) := by
    simp only [Pts.meanCenter, hc, ok_bind]
    simp only [farPair, rows, List.map_cons, List.map_nil, arr_vec3, List.mapM_cons, List.mapM_nil, hsub, ok_bind, pure_ok]
    have r5' : roundNearest 53 (-(1 / 2)) = -(1 / 2) := by rw [← neg_div, r5]
    norm_num [r4, r5', r6, roundNearest_zero]
  refine ⟨_, ?_, hrank⟩
  simp only [Pts.affineRank, hu, ok_bind, hm, pure_ok]

theorem farPair_collinear [ext : NumpyExt ℝ] [hS : StableNumpy η] (hη : η ≤ 1 / 100) :
    @Pts.areConcurrent ℝ (rounded (leftToRight (roundNearest 53))) ext none (rows farPair) = .ok false ∧
    @Pts.areCollinear ℝ (rounded (leftToRight (roundNearest 53))) ext none (rows farPair) = .ok false := by
  obtain ⟨r, h1, h2⟩ := farPair_rank (η := η) hη
  constructor
  · simp only [Pts.areConcurrent, h1, ok_bind, pure_ok]
    congr 1
    rw [decide_eq_false_iff_not]
    omega
  · simp only [Pts.areCollinear, h1, ok_bind, pure_ok]
    congr 1
    rw [decide_eq_false_iff_not]
    omega

/-- C106 (defect): in binary64 arithmetic the two points `(2⁵³, 0, 0)` and `(2⁵³ + 2, 1, 0)` are not found collinear, so
that `Plane.best_fit` returns a plane through two points, and with `full_matrices=False` raises `IndexError`.  So it is for
every backward stable `svd` and `matrix_rank`. -/
theorem C106_two_points_defect [ext : NumpyExt ℝ] [hS : StableNumpy η] (hη : η ≤ 1 / 100) :
    @Pts.areCollinear ℝ (rounded (leftToRight (roundNearest 53))) ext none
      (rows [vec3 9007199254740992 0 0, vec3 9007199254740994 1 0]) = .ok false ∧
    (∃ r, @Plane.bestFit ℝ (rounded (leftToRight (roundNearest 53))) ext
      (rows [vec3 9007199254740992 0 0, vec3 9007199254740994 1 0]) none true = .ok r) ∧
    ∃ msg, @Plane.bestFit ℝ (rounded (leftToRight (roundNearest 53))) ext
      (rows [vec3 9007199254740992 0 0, vec3 9007199254740994 1 0]) none false = .error (.indexError msg) := by
  have hcl := (farPair_collinear (η := η) hη).2
  refine ⟨hcl, ?_, ?_⟩
  · obtain ⟨c, m, err, s, h1, -⟩ := (C106_plane_best_fit (η := η) std53 (by norm_num) (P := farPair) (by simp [farPair]) none
      true).2.2 hcl (.inl rfl)
    exact ⟨_, h1⟩
  · exact (C106_plane_best_fit (η := η) std53 (by norm_num) (P := farPair) (by simp [farPair]) none false).2.1 hcl rfl
      (by simp [farPair])

/-! ## The hypotheses are met -/

/-- With an exact NumPy (a `StableNumpy 0`) and binary64 arithmetic both theorems apply to the two points of the example. -/
example : ∃ (ext : NumpyExt ℝ) (_ : @StableNumpy 0 ext),
    @Pts.areConcurrent ℝ (rounded (leftToRight (roundNearest 53))) ext none (rows farPair) = .ok false ∧
    @Pts.areCollinear ℝ (rounded (leftToRight (roundNearest 53))) ext none (rows farPair) = .ok false := by
  obtain ⟨ext, hl, -⟩ := exists_lawfulNumpy fun _ x => x
  have := @StableNumpy.of_lawful ext hl
  exact ⟨ext, this, farPair_collinear (η := 0) (by norm_num)⟩

/-- The noise of the points `(0, 0)`, `(4, 0)`, `(0, 3)` is below `1e-14`. -/
example : fitNoise ((2 : ℝ)⁻¹ ^ 53) 0 [vec2 0 0, vec2 4 0, vec2 0 3] ≤ 1 / 10 ^ 14 := by
  have : frob [vec2 0 0, vec2 4 0, vec2 0 3] = 5 := by
    rw [frob]
    simp only [List.map_cons, List.map_nil, List.sum_cons, List.sum_nil, norm_sq2, vec2, PiLp.toLp_apply, Matrix.cons_val]
    rw [show (0 : ℝ) ^ 2 + 0 ^ 2 + (4 ^ 2 + 0 ^ 2 + (0 ^ 2 + 3 ^ 2 + 0)) = 5 ^ 2 by norm_num]
    exact Real.sqrt_sq (by norm_num)
  rw [fitNoise, this]
  norm_num

end SkSpatial
