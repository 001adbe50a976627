import Verif.Spec.Geometry
import Verif.Lemmas.Plane
import Verif.Props.Line
/-! # C30 (planes), C33 - C39, C41: planes

A constructed plane is written `Plane.new (arr p) (arr m) = .ok P`; its set of points is `planeSet p m`. -/

namespace SkSpatial

variable {n : ℕ}

/-! ## C35, C36 -/

open Classical in
/-- C35: `project_point`, the distances and `side_point`. -/
theorem C35_project_point {p m : E n} {P : Plane ℝ} (hP : Plane.new (arr p) (arr m) = .ok P) (x : E n) :
    ∃ (q : E n) (r : ℝ) (s : ℤ), P.projectPoint (arr x) = .ok (arr q) ∧ q ∈ planeSet p m ∧
      (∀ y ∈ planeSet p m, dist x q ≤ dist x y) ∧ (∀ y ∈ planeSet p m, dist x y = dist x q → y = q) ∧
      (x ∈ planeSet p m → q = x) ∧
      P.distancePoint (arr x) = .ok (dist x q) ∧ P.distancePointSigned (arr x) = .ok r ∧
      |r| = dist x q ∧ x = q + r • ‖m‖⁻¹ • m ∧
      (0 < r ↔ 0 < (inner ℝ (x - p) m : ℝ)) ∧ (r < 0 ↔ (inner ℝ (x - p) m : ℝ) < 0) ∧
      (r = 0 ↔ x ∈ planeSet p m) ∧
      P.sidePoint (arr x) = .ok s ∧ (s = 1 ↔ 0 < r) ∧ (s = -1 ↔ r < 0) ∧ (s = 0 ↔ r = 0) ∧
      P.containsPoint Tol.default (arr x) = .ok (decide (x ∈ planeSet p m)) := by
  obtain ⟨hn, hm, rfl⟩ := Plane.new_ok hP
  have hpos : 0 < ‖m‖⁻¹ := inv_pos.mpr (norm_pos_iff.mpr hm)
  have hr : psignedE p m x = ‖m‖⁻¹ * inner ℝ (x - p) m := by rw [psignedE, real_inner_smul_right]
  refine ⟨pfootE p m x, psignedE p m x,
    if 0 < psignedE p m x then 1 else if psignedE p m x < 0 then -1 else 0, by simp, pfootE_mem p hm x,
    fun y hy => pfootE_le p hm x y hy, fun y hy h => pfootE_unique p hm x y hy h, pfootE_self,
    Plane.distancePoint_arr p x hm, Plane.distancePointSigned_arr p x hm, (dist_pfootE p hm x).symm,
    pfootE_signed p hm x, ?_, ?_, psignedE_eq_zero hm, ?_, ?_, ?_, ?_,
    Plane.containsPoint_default_arr p x hm⟩
  · rw [hr, mul_pos_iff_of_pos_left hpos]
  · rw [hr]; constructor
    · intro h; by_contra hc; nlinarith
    · intro h; nlinarith
  · simp only [Plane.sidePoint, Plane.distancePointSigned_arr p x hm, ok_bind, intSign, zero_real,
      lt_real, eq_real, decide_eq_true_eq]
    split_ifs with h1 h2 h3
    · rfl
    · rfl
    · rfl
    · exact absurd (le_antisymm (not_lt.mp h1) (not_lt.mp h2)) h3
  · split_ifs with h1 h2 <;> simp [h1]
  · split_ifs with h1 h2
    · simp; exact h1.le
    · simp [h2]
    · simp at *; linarith
  · split_ifs with h1 h2
    · simp; exact h1.ne'
    · simp; exact h2.ne
    · simp at *; linarith

/-- C36: the batch methods agree with the single-point methods, row by row. -/
theorem C36_batch {p m : E n} {P : Plane ℝ} (hP : Plane.new (arr p) (arr m) = .ok P) {X : List (E n)}
    (hX : X ≠ []) :
    ∃ (Q : List (E n)) (ss ds : List ℝ), P.projectPoints (rows X) = .ok (rows Q) ∧
      P.distancePointsSigned (rows X) = .ok ss ∧ P.distancePoints (rows X) = .ok ds ∧
      List.Forall₂ (fun x q => P.projectPoint (arr x) = .ok (arr q)) X Q ∧
      List.Forall₂ (fun x r => P.distancePointSigned (arr x) = .ok r) X ss ∧
      List.Forall₂ (fun x r => P.distancePoint (arr x) = .ok r) X ds ∧
      P.sumSquares (rows X) = .ok (ds.map fun r => r ^ 2).sum := by
  obtain ⟨hn, hm, rfl⟩ := Plane.new_ok hP
  refine ⟨_, _, X.map fun x => dist x (pfootE p m x), Plane.projectPoints_arr p hm hX,
    Plane.distancePointsSigned_arr p hm hX, ?_, ?_, ?_, ?_, ?_⟩
  · simp [Plane.distancePoints, Plane.distancePointsSigned_arr p hm hX, dist_pfootE p hm]
  · rw [List.forall₂_map_right_iff]; simp
  · rw [List.forall₂_map_right_iff]; simp [Plane.distancePointSigned_arr p _ hm]
  · rw [List.forall₂_map_right_iff]; simp [Plane.distancePoint_arr p _ hm]
  · rw [Plane.sumSquares_arr p hm hX]; simp [Function.comp_def]

example : ∃ P, Plane.new (arr (vec3 0 0 1)) (arr (vec3 0 0 2)) = .ok P := by
  refine ⟨_, Plane.new_arr _ ?_⟩
  intro h; have := congrFun (congrArg WithLp.ofLp h) 2; simp [vec3] at this

/-! ## C33 -/

theorem span_eq_planeSet {u v : E 3} (h : LinearIndependent ℝ ![u, v]) (p : E 3) :
    planeSet p (crossE u v) = {x | ∃ s t : ℝ, x = p + s • u + t • v} := by
  have hN : ‖crossE u v‖ ^ 2 ≠ 0 := by
    have : crossE u v ≠ 0 := fun h0 => (crossE_eq_zero_iff u v).mp h0 h
    have := norm_ne_zero_iff.mpr this
    positivity
  ext x
  constructor
  · intro hx
    have hdec := cross_decomp u v (x - p)
    have hx' : (inner ℝ (x - p) (crossE u v) : ℝ) = 0 := hx
    rw [hx', zero_smul, add_zero] at hdec
    refine ⟨inner ℝ (crossE (x - p) v) (crossE u v) / ‖crossE u v‖ ^ 2,
      inner ℝ (crossE u (x - p)) (crossE u v) / ‖crossE u v‖ ^ 2, ?_⟩
    rw [add_assoc, ← sub_eq_iff_eq_add', div_eq_inv_mul, div_eq_inv_mul, ← smul_smul, ← smul_smul,
      ← smul_add, ← hdec, smul_smul, inv_mul_cancel₀ hN, one_smul]
  · rintro ⟨s, t, rfl⟩
    rw [mem_planeSet, add_assoc, add_sub_cancel_left, inner_add_right, real_inner_smul_right,
      real_inner_smul_right, crossE_inner_left, crossE_inner_right]
    simp

theorem crossE_pad3_ne_zero (hn : n ≤ 3) {u v : E n} (h : LinearIndependent ℝ ![u, v]) :
    crossE (pad3 u) (pad3 v) ≠ 0 :=
  fun h0 => (crossE_eq_zero_iff _ _).mp h0 (pad3_linearIndependent hn h)

theorem not_dependent_of_not_parallelTol {tol : Tol ℝ} (ht : tol.Nonneg) {u v : E n}
    (h : ¬ ParallelTol tol u v) : LinearIndependent ℝ ![u, v] := by
  by_contra hc; exact h (parallelTol_of_dependent ht hc)

theorem Plane.fromVectors_arr {k : ℕ} [NeZero n] [NeZero k] (hn : n ≤ 3) (hk : k ≤ 3) {tol : Tol ℝ}
    (ht : tol.Nonneg) (p : E k) {u v : E n} (h : ¬ ParallelTol tol u v) :
    Plane.fromVectors tol (arr p) (arr u) (arr v) =
      .ok ⟨arr (pad3 p), arr (crossE (pad3 u) (pad3 v))⟩ := by
  have hli := not_dependent_of_not_parallelTol ht h
  simp [Plane.fromVectors, isParallel_arr ht, h, cross_arr hn hn, setDimension3_arr p hk,
    Plane.new_arr _ (crossE_pad3_ne_zero hn hli)]

theorem ParallelTol.symm {tol : Tol ℝ} {u v : E n} (h : ParallelTol tol u v) : ParallelTol tol v u := by
  rcases h with h | h | h
  · right; left; exact h
  · left; exact h
  · right; right; rw [cosE_comm]; exact h

/-- C33: `Plane.from_vectors` raises iff the vectors are accepted as parallel; otherwise the plane is
exactly the span, and swapping the vectors only flips the normal. -/
theorem C33_from_vectors {k : ℕ} [NeZero n] [NeZero k] (hn : n ≤ 3) (hk : k ≤ 3) (p : E k) (u v : E n)
    {tol : Tol ℝ} (ht : tol.Nonneg) :
    (ParallelTol tol u v → ∃ msg, Plane.fromVectors tol (arr p) (arr u) (arr v) = .error (.valueError msg)) ∧
    (¬ ParallelTol tol u v → ∃ (P P' : Plane ℝ) (m : E 3),
      Plane.fromVectors tol (arr p) (arr u) (arr v) = .ok P ∧
      Plane.new (arr (pad3 p)) (arr m) = .ok P ∧
      planeSet (pad3 p) m = {x | ∃ s t : ℝ, x = pad3 p + s • pad3 u + t • pad3 v} ∧
      Plane.fromVectors tol (arr p) (arr v) (arr u) = .ok P' ∧
      Plane.new (arr (pad3 p)) (arr (-m)) = .ok P' ∧ planeSet (pad3 p) (-m) = planeSet (pad3 p) m) := by
  constructor
  · intro h
    exact ⟨_, by simp [Plane.fromVectors, isParallel_arr ht, h]; rfl⟩
  · intro h
    have h' : ¬ ParallelTol tol v u := fun h0 => h h0.symm
    have hli := not_dependent_of_not_parallelTol ht h
    have hne := crossE_pad3_ne_zero hn hli
    refine ⟨_, _, crossE (pad3 u) (pad3 v), Plane.fromVectors_arr hn hk ht p h, Plane.new_arr _ hne,
      span_eq_planeSet (pad3_linearIndependent hn hli) _, Plane.fromVectors_arr hn hk ht p h', ?_, ?_⟩
    · rw [crossE_anticomm (pad3 u) (pad3 v)]
      exact Plane.new_arr _ (neg_ne_zero.mpr hne)
    · ext x; simp [planeSet]

/-- C33: the default tolerance: parallel means `NearParallel`, in particular exactly parallel vectors are
rejected. -/
theorem C33_from_vectors_default {k : ℕ} [NeZero n] [NeZero k] (hn : n ≤ 3) (hk : k ≤ 3) (p : E k)
    (u v : E n) :
    ((∃ P, Plane.fromVectors Tol.default (arr p) (arr u) (arr v) = .ok P) ↔ ¬ NearParallel u v) ∧
    (¬ LinearIndependent ℝ ![u, v] →
      ∃ msg, Plane.fromVectors Tol.default (arr p) (arr u) (arr v) = .error (.valueError msg)) := by
  obtain ⟨h1, h2⟩ := C33_from_vectors hn hk p u v Tol.default_nonneg
  rw [parallelTol_default] at h1 h2
  refine ⟨⟨?_, fun h => ?_⟩, fun h => h1 (nearParallel_of_dependent h)⟩
  · rintro ⟨P, hP⟩ h
    obtain ⟨msg, he⟩ := h1 h
    rw [he] at hP; cases hP
  · obtain ⟨P, -, -, hP, -⟩ := h2 h
    exact ⟨P, hP⟩

theorem collinear_dependent {a b c : E n} (h : Collinear ℝ {a, b, c}) : ¬ LinearIndependent ℝ ![b - a, c - a] := by
  rw [collinear_iff_of_mem (p₀ := a) (by simp)] at h
  obtain ⟨w, hw⟩ := h
  obtain ⟨s, hs⟩ := hw b (by simp)
  obtain ⟨t, ht⟩ := hw c (by simp)
  have hs' : b - a = s • w := by rw [hs]; simp
  have ht' : c - a = t • w := by rw [ht]; simp
  rw [hs', ht', LinearIndependent.pair_iff]
  intro hli
  by_cases ht0 : t = 0
  · have := (hli 0 1 (by simp [ht0])).2; norm_num at this
  · have := (hli t (-s) (by rw [neg_smul, smul_smul, smul_smul, mul_comm, add_neg_cancel])).1
    exact ht0 this

section
variable [NumpyExt ℝ] [LawfulNumpy]

/-- C33: `Plane.from_points(a, b, c)`.  When it returns, the plane is exactly the affine span of the three
points; collinear points always raise; points not accepted as collinear, with edges not accepted as
parallel, always give the plane; dimension above 3 raises. -/
theorem C33_from_points [NeZero n] (a b c : E n) (tol : Option ℝ) (htol : ∀ t, tol = some t → 0 ≤ t) :
    (∀ P, Plane.fromPoints tol (arr a) (arr b) (arr c) = .ok P → ∃ m : E 3,
      Plane.new (arr (pad3 a)) (arr m) = .ok P ∧
      planeSet (pad3 a) m = {x | ∃ s t : ℝ, x = pad3 a + s • pad3 (b - a) + t • pad3 (c - a)} ∧
      pad3 a ∈ planeSet (pad3 a) m ∧ pad3 b ∈ planeSet (pad3 a) m ∧ pad3 c ∈ planeSet (pad3 a) m) ∧
    (Collinear ℝ {a, b, c} ∨ 3 < n →
      ∃ msg, Plane.fromPoints tol (arr a) (arr b) (arr c) = .error (.valueError msg)) ∧
    (n ≤ 3 → Pts.areCollinear tol (rows [a, b, c]) = .ok false → ¬ NearParallel (b - a) (c - a) →
      ∃ P, Plane.fromPoints tol (arr a) (arr b) (arr c) = .ok P) := by
  have hset : ({x | x ∈ [a, b, c]} : Set (E n)) = {a, b, c} := by ext x; simp
  have hval : ∀ col, Pts.areCollinear tol (rows [a, b, c]) = .ok col →
      Plane.fromPoints tol (arr a) (arr b) (arr c) =
        if col then .error (.valueError "The points must not be collinear.")
        else Plane.fromVectors Tol.default (arr a) (arr (b - a)) (arr (c - a)) := by
    intro col hcol
    have hnp : newPoints [arr a, arr b, arr c] = .ok (rows [a, b, c]) :=
      newPoints_rows (P := [a, b, c]) (by simp)
    simp only [Plane.fromPoints, hnp, ok_bind, hcol, fromPoints_arr]
  obtain ⟨-, col, -, -, hcol, -, -, hc, -⟩ := C22_predicates (P := [a, b, c]) (by simp) tol htol
  rw [hset] at hc
  rw [hval col hcol]
  have hgt : 3 < n → ∃ msg, Plane.fromVectors Tol.default (arr a) (arr (b - a)) (arr (c - a)) =
      .error (.valueError msg) := by
    intro h3
    by_cases hpar : NearParallel (b - a) (c - a)
    · exact ⟨_, by simp [Plane.fromVectors, hpar]; rfl⟩
    · refine ⟨"The desired dimension cannot be less than the current dimension.", ?_⟩
      simp [Plane.fromVectors, hpar, Vec.cross, setDimension3_arr_gt _ h3]
  refine ⟨?_, ?_, ?_⟩
  · intro P hP
    cases col with
    | true => simp at hP
    | false =>
      simp only [Bool.false_eq_true, if_false] at hP
      have hn3 : n ≤ 3 := by
        by_contra h
        obtain ⟨msg, hm⟩ := hgt (by omega)
        rw [hm] at hP; cases hP
      obtain ⟨h1, h2⟩ := C33_from_vectors hn3 hn3 a (b - a) (c - a) Tol.default_nonneg
      by_cases hpar : ParallelTol Tol.default (b - a) (c - a)
      · obtain ⟨msg, hm⟩ := h1 hpar
        rw [hm] at hP; cases hP
      · obtain ⟨P', -, m, hP', hnew, hset', -⟩ := h2 hpar
        rw [hP'] at hP
        cases hP
        refine ⟨m, hnew, hset', ?_, ?_, ?_⟩
        · rw [hset']; exact ⟨0, 0, by simp⟩
        · rw [hset']; refine ⟨1, 0, ?_⟩
          rw [pad3_sub b a, one_smul, zero_smul]; abel
        · rw [hset']; refine ⟨0, 1, ?_⟩
          rw [pad3_sub c a, one_smul, zero_smul]; abel
  · rintro (h | h)
    · rw [hc h]; exact ⟨_, rfl⟩
    · cases col with
      | true => exact ⟨_, rfl⟩
      | false => exact hgt h
  · intro hn3 hcol' hpar
    rw [hcol] at hcol'
    cases hcol'
    obtain ⟨P, hP⟩ := (C33_from_vectors_default hn3 hn3 a (b - a) (c - a)).1.mpr hpar
    exact ⟨P, hP⟩

end

/-! ## C34 -/

/-- C34: `cartesian` gives the equation of the plane, extended along the missing axes. -/
theorem C34_cartesian {p m : E n} {P : Plane ℝ} (hP : Plane.new (arr p) (arr m) = .ok P) :
    (n ≤ 3 → ∃ a b c d : ℝ, P.cartesian = .ok (a, b, c, d) ∧ vec3 a b c = pad3 m ∧
      (∀ x : E n, x ∈ planeSet p m ↔ a * pad3 x 0 + b * pad3 x 1 + c * pad3 x 2 + d = 0) ∧
      (∀ y : E 3, y ∈ planeSet (pad3 p) (pad3 m) ↔ a * y 0 + b * y 1 + c * y 2 + d = 0)) ∧
    (3 < n → ∃ msg, P.cartesian = .error (.valueError msg)) := by
  obtain ⟨hn, hm, rfl⟩ := Plane.new_ok hP
  constructor
  · intro h3
    have h3' : ¬ 3 < n := by omega
    have hcart : Plane.cartesian ⟨arr p, arr m⟩ =
        .ok (pad3 m 0, pad3 m 1, pad3 m 2, -(inner ℝ m p : ℝ)) := by
      simp only [Plane.cartesian, Plane.dimension, length_arr, gt_iff_lt, h3', if_false,
        setDimension3_arr m h3, ok_bind, dot_arr, neg_real, arr3, pure_ok]
    have hmem : ∀ y : E 3, y ∈ planeSet (pad3 p) (pad3 m) ↔
        pad3 m 0 * y 0 + pad3 m 1 * y 1 + pad3 m 2 * y 2 + -(inner ℝ m p : ℝ) = 0 := by
      intro y
      rw [mem_planeSet, inner_sub_right, inner_pad3 h3, inner3, sub_eq_add_neg]
    refine ⟨_, _, _, _, hcart, ?_, fun x => ?_, hmem⟩
    · ext i; fin_cases i <;> simp [vec3]
    · rw [← hmem, mem_planeSet, mem_planeSet, ← pad3_sub, inner_pad3 h3]
  · intro h
    exact ⟨_, by simp [Plane.cartesian, Plane.dimension, h]; rfl⟩

/-! ## C37 -/

/-- C37: `project_vector`. -/
theorem C37_project_vector {p m : E n} {P : Plane ℝ} (hP : Plane.new (arr p) (arr m) = .ok P) (v : E n) :
    ∃ w : E n, P.projectVector (arr v) = .ok (arr w) ∧ inner ℝ w m = (0 : ℝ) ∧ ∃ c : ℝ, v - w = c • m := by
  obtain ⟨hn, hm, rfl⟩ := Plane.new_ok hP
  have h : ‖m‖ ≠ 0 := norm_ne_zero_iff.mpr hm
  refine ⟨_, Plane.projectVector_arr p m v, ?_, inner ℝ m v / ‖m‖ ^ 2, by simp⟩
  rw [inner_sub_left, real_inner_smul_left, real_inner_self_eq_norm_sq, real_inner_comm]
  field_simp; ring

theorem pfootE_line (q d p m : E n) (t : ℝ) : pfootE p m (q + t • d) =
    pfootE p m q + t • (d - (inner ℝ m d / ‖m‖ ^ 2) • m) := by
  rw [pfootE, pfootE, show p - (q + t • d) = (p - q) - t • d by abel, inner_sub_right,
    real_inner_smul_right, sub_div, sub_smul, smul_sub, smul_smul, mul_div_assoc]
  abel

/-- C37: `project_line` (absolute tolerance 0, as in the default): raises `ValueError` iff the line is
accepted as perpendicular to the plane; otherwise it returns the line of all projected points. -/
theorem C37_project_line {p m q d : E n} {P : Plane ℝ} {L : Line ℝ}
    (hP : Plane.new (arr p) (arr m) = .ok P) (hL : Line.new (arr q) (arr d) = .ok L) {tol : Tol ℝ}
    (ht : tol.Nonneg) (hrel : tol.rel < 1) (habs : tol.abs = 0) :
    (ParallelTol tol m d → ∃ msg, P.projectLine tol L = .error (.valueError msg)) ∧
    (¬ ParallelTol tol m d → ∃ (L' : Line ℝ) (q' d' : E n), P.projectLine tol L = .ok L' ∧
      Line.new (arr q') (arr d') = .ok L' ∧
      lineSet q' d' = {y | ∃ x ∈ lineSet q d, P.projectPoint (arr x) = .ok (arr y)}) := by
  obtain ⟨hn, hm, rfl⟩ := Plane.new_ok hP
  obtain ⟨-, hd, rfl⟩ := Line.new_ok hL
  have hmn : ‖m‖ ≠ 0 := norm_ne_zero_iff.mpr hm
  constructor
  · intro h
    exact ⟨_, by simp [Plane.projectLine, isParallel_arr ht, h]; rfl⟩
  · intro h
    have hli := not_dependent_of_not_parallelTol ht h
    have hd' : d - (inner ℝ m d / ‖m‖ ^ 2) • m ≠ 0 := by
      intro h0
      rw [LinearIndependent.pair_iff] at hli
      have := (hli (-(inner ℝ m d / ‖m‖ ^ 2)) 1 (by rw [one_smul, neg_smul, neg_add_eq_sub, h0])).2
      norm_num at this
    have hset : lineSet (pfootE p m q) (d - (inner ℝ m d / ‖m‖ ^ 2) • m) =
        {y | ∃ x ∈ lineSet q d, Plane.projectPoint ⟨arr p, arr m⟩ (arr x) = .ok (arr y)} := by
      ext y
      simp only [Plane.projectPoint_arr, Except.ok.injEq, arr_inj, Set.mem_ofPred_eq]
      constructor
      · rintro ⟨t, rfl⟩
        exact ⟨q + t • d, ⟨t, rfl⟩, pfootE_line q d p m t⟩
      · rintro ⟨_, ⟨t, rfl⟩, rfl⟩
        exact ⟨t, pfootE_line q d p m t⟩
    refine ⟨_, _, _, ?_, Line.new_arr _ hd', hset⟩
    by_cases hperp : (inner ℝ m d : ℝ) = 0
    · have hc : Close tol (inner ℝ m d : ℝ) 0 := by rw [hperp]; exact Close.refl ht 0
      simp [Plane.projectLine, isParallel_arr ht, h, isPerpendicular_arr ht, hc, Line.new_arr _ hd]
      rw [hperp]; simp
    · have hc : ¬ Close tol (inner ℝ m d : ℝ) 0 := by
        rw [close_zero ht hrel, habs]
        simp [hperp]
      simp [Plane.projectLine, isParallel_arr ht, h, isPerpendicular_arr ht, hc, Plane.projectVector_arr,
        Line.new_arr _ hd']

/-- C37, for all tolerances: `plane.project_line` raises iff the line is accepted as perpendicular to the plane; otherwise
the result passes through the projection of the point of the line. It keeps the direction of the line itself if that is
accepted as perpendicular to the normal (and then, with `abs_tol > 0`, the result may leave the plane: defect); otherwise
the result is the set of projections. -/
theorem C37_project_line_tolerance {p m q d : E n} {P : Plane ℝ} {L : Line ℝ}
    (hP : Plane.new (arr p) (arr m) = .ok P) (hL : Line.new (arr q) (arr d) = .ok L) {tol : Tol ℝ} (ht : tol.Nonneg) :
    (ParallelTol tol m d → ∃ msg, P.projectLine tol L = .error (.valueError msg)) ∧
    (¬ ParallelTol tol m d → ∃ (L' : Line ℝ) (q' d' : E n), P.projectLine tol L = .ok L' ∧
      Line.new (arr q') (arr d') = .ok L' ∧ P.projectPoint (arr q) = .ok (arr q') ∧
      (Close tol (inner ℝ m d) 0 → d' = d ∧ ((inner ℝ m d : ℝ) ≠ 0 → ¬ lineSet q' d' ⊆ planeSet p m)) ∧
      (¬ Close tol (inner ℝ m d) 0 →
        lineSet q' d' = {y | ∃ x ∈ lineSet q d, P.projectPoint (arr x) = .ok (arr y)})) := by
  obtain ⟨hn, hm, rfl⟩ := Plane.new_ok hP
  obtain ⟨-, hd, rfl⟩ := Line.new_ok hL
  constructor
  · intro h
    exact ⟨_, by simp [Plane.projectLine, isParallel_arr ht, h]; rfl⟩
  · intro h
    have hli := not_dependent_of_not_parallelTol ht h
    have hd' : d - (inner ℝ m d / ‖m‖ ^ 2) • m ≠ 0 := by
      intro h0
      rw [LinearIndependent.pair_iff] at hli
      have := (hli (-(inner ℝ m d / ‖m‖ ^ 2)) 1 (by rw [one_smul, neg_smul, neg_add_eq_sub, h0])).2
      norm_num at this
    by_cases hc : Close tol (inner ℝ m d : ℝ) 0
    · refine ⟨_, pfootE p m q, d, ?_, Line.new_arr _ hd, Plane.projectPoint_arr _ _ _, fun _ => ⟨rfl, fun h0 hs => ?_⟩,
        fun h => absurd hc h⟩
      · simp [Plane.projectLine, isParallel_arr ht, h, isPerpendicular_arr ht, hc, Line.new_arr _ hd]
      · have h1 := hs ⟨0, rfl⟩
        have h2 := hs ⟨1, rfl⟩
        simp only [planeSet, Set.mem_setOf_eq, zero_smul, add_zero, one_smul] at h1 h2
        rw [add_sub_right_comm, inner_add_left, h1, zero_add, real_inner_comm] at h2
        exact h0 h2
    · refine ⟨_, pfootE p m q, d - (inner ℝ m d / ‖m‖ ^ 2) • m, ?_, Line.new_arr _ hd', Plane.projectPoint_arr _ _ _,
        fun h => absurd h hc, fun _ => ?_⟩
      · simp [Plane.projectLine, isParallel_arr ht, h, isPerpendicular_arr ht, hc, Plane.projectVector_arr,
          Line.new_arr _ hd']
      · ext y
        simp only [Plane.projectPoint_arr, Except.ok.injEq, arr_inj, Set.mem_ofPred_eq]
        constructor
        · rintro ⟨t, rfl⟩
          exact ⟨q + t • d, ⟨t, rfl⟩, pfootE_line q d p m t⟩
        · rintro ⟨_, ⟨t, rfl⟩, rfl⟩
          exact ⟨t, pfootE_line q d p m t⟩

/-- C37 (defect), a concrete case: with `abs_tol = 0.1` the projection of the line through the origin with direction
`(1, 0, 0.05)` onto the plane `z = 0` leaves the plane. -/
example : ∃ (P : Plane ℝ) (L L' : Line ℝ) (q' d' : E 3), Plane.new (arr (vec3 0 0 0)) (arr (vec3 0 0 1)) = .ok P ∧
    Line.new (arr (vec3 0 0 0)) (arr (vec3 1 0 (1 / 20))) = .ok L ∧ P.projectLine ⟨0, 1 / 10⟩ L = .ok L' ∧
    Line.new (arr q') (arr d') = .ok L' ∧ ¬ lineSet q' d' ⊆ planeSet (vec3 0 0 0) (vec3 0 0 1) := by
  have hm : vec3 0 0 1 ≠ 0 := by intro h; have := congrFun (congrArg WithLp.ofLp h) 2; simp [vec3] at this
  have hd : vec3 1 0 (1 / 20) ≠ 0 := by intro h; have := congrFun (congrArg WithLp.ofLp h) 0; simp [vec3] at this
  have hi : (inner ℝ (vec3 0 0 1) (vec3 1 0 (1 / 20)) : ℝ) = 1 / 20 := by simp [inner3, vec3]
  have hn1 : ‖vec3 0 0 1‖ ^ 2 = 1 := by rw [norm_sq3]; simp [vec3]
  have hn2 : ‖vec3 1 0 (1 / 20)‖ ^ 2 = 401 / 400 := by rw [norm_sq3]; simp [vec3]; norm_num
  have hn3 : ‖vec3 0 0 1‖ = 1 := by rw [← Real.sqrt_sq (norm_nonneg _), hn1, Real.sqrt_one]
  have hn4 : 1 ≤ ‖vec3 1 0 (1 / 20)‖ := by
    refine le_of_sq_le_sq ?_ (norm_nonneg _)
    rw [hn2]; norm_num
  have hp : ¬ ParallelTol (⟨0, 1 / 10⟩ : Tol ℝ) (vec3 0 0 1) (vec3 1 0 (1 / 20)) := by
    have hc : |cosE (vec3 0 0 1) (vec3 1 0 (1 / 20))| ≤ 1 / 20 := by
      rw [cosE, hi, hn3, one_mul, abs_of_nonneg (by positivity), div_le_iff₀ (by linarith)]
      linarith
    have hc0 := abs_nonneg (cosE (vec3 0 0 1) (vec3 1 0 (1 / 20)))
    simp only [ParallelTol, Close, hn1, hn2]
    norm_num
    rw [abs_of_nonpos (by linarith)]
    linarith
  obtain ⟨L', q', d', h1, h2, -, h3, -⟩ := (C37_project_line_tolerance (Plane.new_arr _ hm) (Line.new_arr _ hd)
    (tol := ⟨0, 1 / 10⟩) (by norm_num [Tol.Nonneg])).2 hp
  exact ⟨_, _, L', q', d', Plane.new_arr _ hm, Line.new_arr _ hd, h1, h2,
    (h3 (by rw [hi]; norm_num [Close])).2 (by rw [hi]; norm_num)⟩

/-- The default tolerances satisfy the hypotheses of `C37_project_line`. -/
example : (Tol.default : Tol ℝ).Nonneg ∧ (Tol.default : Tol ℝ).rel < 1 ∧ (Tol.default : Tol ℝ).abs = 0 := by
  refine ⟨Tol.default_nonneg, ?_, Tol.default_abs⟩
  rw [Tol.default_rel]; norm_num

/-! ## C38 -/

/-- C38: `plane.intersect_line`: for all tolerances, what is returned is the only common point; it raises
iff the direction is accepted as perpendicular to the normal, by default iff it is. -/
theorem C38_intersect_line {p m q d : E n} {P : Plane ℝ} {L : Line ℝ}
    (hP : Plane.new (arr p) (arr m) = .ok P) (hL : Line.new (arr q) (arr d) = .ok L) {tol : Tol ℝ}
    (ht : tol.Nonneg) :
    (Close tol (inner ℝ m d) 0 → ∃ msg, P.intersectLine tol L = .error (.valueError msg)) ∧
    (¬ Close tol (inner ℝ m d) 0 → ∃ x : E n, P.intersectLine tol L = .ok (arr x) ∧
      ∀ y, (y ∈ planeSet p m ∧ y ∈ lineSet q d) ↔ y = x) ∧
    (Close Tol.default (inner ℝ m d) 0 ↔ (inner ℝ m d : ℝ) = 0) := by
  obtain ⟨hn, hm, rfl⟩ := Plane.new_ok hP
  obtain ⟨-, hd, rfl⟩ := Line.new_ok hL
  refine ⟨fun h => ?_, fun h => ?_, close_default_zero _⟩
  · exact ⟨_, by simp [Plane.intersectLine, isPerpendicular_arr ht, h]; rfl⟩
  · have hne : (inner ℝ m d : ℝ) ≠ 0 := by
      intro h0; rw [h0] at h; exact h (Close.refl ht 0)
    refine ⟨q + (-(inner ℝ m (q - p) : ℝ) / inner ℝ m d) • d, ?_, fun y => ⟨?_, ?_⟩⟩
    · simp [Plane.intersectLine, isPerpendicular_arr ht, h]
    · rintro ⟨h1, t, rfl⟩
      rw [mem_planeSet, add_sub_right_comm, inner_add_right, real_inner_smul_right] at h1
      have : t = -(inner ℝ m (q - p) : ℝ) / inner ℝ m d := by
        rw [eq_div_iff hne]; linarith
      rw [this]
    · rintro rfl
      refine ⟨?_, _, rfl⟩
      rw [mem_planeSet, add_sub_right_comm, inner_add_right, real_inner_smul_right]
      field_simp; ring

/-! ## C39 -/

section
variable [NumpyExt ℝ] [LawfulNumpy]

/-- C39: `plane.intersect_plane`.  For normals accepted as parallel, or not 3D, `ValueError`.  Otherwise
(non-singular system, by the proof) the returned line is exactly the set of common points, and its base
point is the common point closest to the origin. -/
theorem C39_intersect_plane {p m q k : E 3} {P Q : Plane ℝ}
    (hP : Plane.new (arr p) (arr m) = .ok P) (hQ : Plane.new (arr q) (arr k) = .ok Q) {tol : Tol ℝ}
    (ht : tol.Nonneg) :
    (ParallelTol tol m k → ∃ msg, P.intersectPlane tol Q = .error (.valueError msg)) ∧
    (¬ ParallelTol tol m k → ∃ (L : Line ℝ) (x d : E 3), P.intersectPlane tol Q = .ok L ∧
      Line.new (arr x) (arr d) = .ok L ∧ lineSet x d = planeSet p m ∩ planeSet q k ∧
      ∀ y ∈ planeSet p m ∩ planeSet q k, ‖x‖ ≤ ‖y‖) := by
  obtain ⟨-, hm, rfl⟩ := Plane.new_ok hP
  obtain ⟨-, hk, rfl⟩ := Plane.new_ok hQ
  constructor
  · intro h
    exact ⟨_, by simp [Plane.intersectPlane, isParallel_arr ht, h]; rfl⟩
  intro h
  have hli := not_dependent_of_not_parallelTol ht h
  have hcross : crossE m k ≠ 0 := fun h0 => (crossE_eq_zero_iff m k).mp h0 hli
  have hN : ‖crossE m k‖ ^ 2 ≠ 0 := by
    have := norm_ne_zero_iff.mpr hcross
    positivity
  -- the solution of the linear system
  set N := ‖crossE m k‖ ^ 2 with hNdef
  set α : ℝ := ((inner ℝ p m : ℝ) * ‖k‖ ^ 2 - (inner ℝ q k : ℝ) * inner ℝ m k) / N with hα
  set β : ℝ := ((inner ℝ q k : ℝ) * ‖m‖ ^ 2 - (inner ℝ p m : ℝ) * inner ℝ m k) / N with hβ
  have hNval : N = ‖m‖ ^ 2 * ‖k‖ ^ 2 - (inner ℝ m k : ℝ) ^ 2 := crossE_norm_sq m k
  have hxm : (inner ℝ m (α • m + β • k) : ℝ) = inner ℝ p m := by
    rw [inner_add_right, real_inner_smul_right, real_inner_smul_right, real_inner_self_eq_norm_sq, hα, hβ]
    field_simp
    rw [hNval]; ring
  have hxk : (inner ℝ k (α • m + β • k) : ℝ) = inner ℝ q k := by
    rw [inner_add_right, real_inner_smul_right, real_inner_smul_right, real_inner_self_eq_norm_sq, hα, hβ,
      real_inner_comm m k]
    field_simp
    rw [hNval]; ring
  set x : E 3 := α • m + β • k with hx
  -- the matrix
  let A : List (E 5) := [WithLp.toLp 2 ![2, 0, 0, m 0, k 0], WithLp.toLp 2 ![0, 2, 0, m 1, k 1],
    WithLp.toLp 2 ![0, 0, 2, m 2, k 2], WithLp.toLp 2 ![m 0, m 1, m 2, 0, 0],
    WithLp.toLp 2 ![k 0, k 1, k 2, 0, 0]]
  have hrows : rows A = [[2, 0, 0, m 0, k 0], [0, 2, 0, m 1, k 1], [0, 0, 2, m 2, k 2],
      [m 0, m 1, m 2, 0, 0], [k 0, k 1, k 2, 0, 0]] := by
    simp [rows, A, arr, List.ofFn_succ]
  let b : E 5 := WithLp.toLp 2 ![0, 0, 0, inner ℝ p m, inner ℝ q k]
  let s : E 5 := WithLp.toLp 2 ![x 0, x 1, x 2, -2 * α, -2 * β]
  have hb : arr b = [0, 0, 0, inner ℝ p m, inner ℝ q k] := by simp [b, arr, List.ofFn_succ]
  have hs : arr s = [x 0, x 1, x 2, -2 * α, -2 * β] := by simp [s, arr, List.ofFn_succ]
  have hA5 : A.length = 5 := rfl
  have hind : LinearIndependent ℝ A.get := by
    have : LinearIndependent ℝ (fun i : Fin 5 => A.get i) := by
      rw [Fintype.linearIndependent_iff]
      intro g hg
      have hc : ∀ j : Fin 5, ∑ i : Fin 5, g i * (A.get i) j = 0 := by
        intro j
        have := congrFun (congrArg WithLp.ofLp hg) j
        simpa using this
      have c0 := hc 0
      have c1 := hc 1
      have c2 := hc 2
      have c3 := hc 3
      have c4 := hc 4
      simp [Fin.sum_univ_five, A] at c0 c1 c2 c3 c4
      have hsq : g 0 ^ 2 + g 1 ^ 2 + g 2 ^ 2 = 0 := by
        linear_combination (g 0 * c0 + g 1 * c1 + g 2 * c2 - g 3 * c3 - g 4 * c4) / 2
      have g0 : g 0 = 0 := by nlinarith [sq_nonneg (g 0), sq_nonneg (g 1), sq_nonneg (g 2)]
      have g1 : g 1 = 0 := by nlinarith [sq_nonneg (g 0), sq_nonneg (g 1), sq_nonneg (g 2)]
      have g2 : g 2 = 0 := by nlinarith [sq_nonneg (g 0), sq_nonneg (g 1), sq_nonneg (g 2)]
      rw [LinearIndependent.pair_iff] at hli
      have h34 := hli (g 3) (g 4) (by
        ext i
        fin_cases i
        · simp; linarith
        · simp; linarith
        · simp; linarith)
      intro i
      fin_cases i
      · exact g0
      · exact g1
      · exact g2
      · exact h34.1
      · exact h34.2
    exact this
  have hsol : NumpyExt.solve (rows A) (arr b) = .ok (arr s) := by
    apply LawfulNumpy.solve A b s hA5 hind
    rw [inner3, inner3] at hxm hxk
    intro i
    have hx0 : x 0 = α * m 0 + β * k 0 := by simp [hx]
    have hx1 : x 1 = α * m 1 + β * k 1 := by simp [hx]
    have hx2 : x 2 = α * m 2 + β * k 2 := by simp [hx]
    fin_cases i
    · simp [PiLp.inner_apply, Fin.sum_univ_five, A, s, b, hx0]; ring
    · simp [PiLp.inner_apply, Fin.sum_univ_five, A, s, b, hx1]; ring
    · simp [PiLp.inner_apply, Fin.sum_univ_five, A, s, b, hx2]; ring
    · simp [PiLp.inner_apply, Fin.sum_univ_five, A, s, b, Fin.sum_univ_three]; linarith
    · simp [PiLp.inner_apply, Fin.sum_univ_five, A, s, b, Fin.sum_univ_three]; linarith
  rw [hrows, hb, hs] at hsol
  have hval : Plane.intersectPlane tol ⟨arr p, arr m⟩ ⟨arr q, arr k⟩ =
      .ok ⟨arr x, arr (crossE m k)⟩ := by
    have hx3 : ([x 0, x 1, x 2, -2 * α, -2 * β] : List ℝ).take 3 = arr x := by simp [arr3]
    have hcr : Vec.cross [m 0, m 1, m 2] [k 0, k 1, k 2] = .ok (arr (crossE m k)) := by
      rw [← arr3, ← arr3, cross_arr3]
    have hd1 : dot (arr p) [m 0, m 1, m 2] = .ok (inner ℝ p m) := by rw [← arr3, dot_arr]
    have hd2 : dot (arr q) [k 0, k 1, k 2] = .ok (inner ℝ q k) := by rw [← arr3, dot_arr]
    simp only [Plane.intersectPlane, isParallel_arr ht, h, decide_false, ok_bind]
    simp only [arr3 m, arr3 k]
    simp only [hd1, hd2, ok_bind, two_real, zero_real, hsol, hx3, new1D_arr, hcr, Line.new_arr x hcross,
      Bool.false_eq_true, if_false]
  refine ⟨_, x, crossE m k, hval, Line.new_arr x hcross, ?_, ?_⟩
  · ext y
    constructor
    · rintro ⟨t, rfl⟩
      constructor
      · rw [mem_planeSet, inner_sub_right, inner_add_right, real_inner_smul_right, hxm,
          real_inner_comm (crossE m k) m, crossE_inner_left, real_inner_comm]; ring
      · rw [mem_planeSet, inner_sub_right, inner_add_right, real_inner_smul_right, hxk,
          real_inner_comm (crossE m k) k, crossE_inner_right, real_inner_comm]; ring
    · rintro ⟨h1, h2⟩
      rw [mem_planeSet, inner_sub_right] at h1 h2
      have e1 : (inner ℝ m (y - x) : ℝ) = 0 := by
        rw [inner_sub_right, hxm, real_inner_comm m p]; exact h1
      have e2 : (inner ℝ k (y - x) : ℝ) = 0 := by
        rw [inner_sub_right, hxk, real_inner_comm k q]; exact h2
      have hdec := cross_decomp m k (y - x)
      have z1 : (inner ℝ (crossE (y - x) k) (crossE m k) : ℝ) = 0 := by
        have : (inner ℝ (crossE (y - x) k) (crossE m k) : ℝ) =
            inner ℝ m (y - x) * inner ℝ k k - inner ℝ k (y - x) * inner ℝ m k := by
          simp only [inner3, crossE, vec3]; simp; ring
        rw [this, e1, e2]; ring
      have z2 : (inner ℝ (crossE m (y - x)) (crossE m k) : ℝ) = 0 := by
        have : (inner ℝ (crossE m (y - x)) (crossE m k) : ℝ) =
            inner ℝ m m * inner ℝ k (y - x) - inner ℝ m k * inner ℝ m (y - x) := by
          simp only [inner3, crossE, vec3]; simp; ring
        rw [this, e1, e2]; ring
      rw [z1, z2, zero_smul, zero_smul, zero_add, zero_add] at hdec
      refine ⟨inner ℝ (y - x) (crossE m k) / N, ?_⟩
      rw [← sub_eq_iff_eq_add', div_eq_inv_mul, ← smul_smul, ← hdec, smul_smul, inv_mul_cancel₀ hN, one_smul]
  · rintro y ⟨h1, h2⟩
    rw [mem_planeSet, inner_sub_right] at h1 h2
    have e : (inner ℝ x (y - x) : ℝ) = 0 := by
      have e1 : (inner ℝ m (y - x) : ℝ) = 0 := by
        rw [inner_sub_right, hxm, real_inner_comm m p]; exact h1
      have e2 : (inner ℝ k (y - x) : ℝ) = 0 := by
        rw [inner_sub_right, hxk, real_inner_comm k q]; exact h2
      rw [hx, inner_add_left, real_inner_smul_left, real_inner_smul_left, e1, e2]; ring
    apply le_of_sq_le_sq _ (norm_nonneg _)
    have : y = x + (y - x) := by abel
    rw [this, norm_add_sq_real x (y - x), e]
    nlinarith [sq_nonneg ‖y - x‖]

omit [LawfulNumpy] in
/-- C39: the normals must be 3D. -/
theorem C39_intersect_plane_dimension {p m q k : E n} {P Q : Plane ℝ} (hn3 : n ≠ 3)
    (hP : Plane.new (arr p) (arr m) = .ok P) (hQ : Plane.new (arr q) (arr k) = .ok Q) {tol : Tol ℝ}
    (ht : tol.Nonneg) : ∃ msg, P.intersectPlane tol Q = .error (.valueError msg) := by
  obtain ⟨hn, hm, rfl⟩ := Plane.new_ok hP
  obtain ⟨-, hk, rfl⟩ := Plane.new_ok hQ
  by_cases h : ParallelTol tol m k
  · exact ⟨_, by simp [Plane.intersectPlane, isParallel_arr ht, h]; rfl⟩
  · refine ⟨"mismatching array shapes in block", ?_⟩
    simp only [Plane.intersectPlane, isParallel_arr ht, h, decide_false, ok_bind, Bool.false_eq_true,
      if_false]
    split
    · rename_i h1 _
      have := congrArg List.length h1
      simp at this; exact absurd this hn3
    · rfl

end

/-- Non-parallel normals exist. -/
example : ¬ ParallelTol Tol.default (vec3 1 0 0) (vec3 0 1 0) := by
  have hne1 : vec3 1 0 0 ≠ 0 := by
    intro h; have := congrFun (congrArg WithLp.ofLp h) 0; simp [vec3] at this
  have hne2 : vec3 0 1 0 ≠ 0 := by
    intro h; have := congrFun (congrArg WithLp.ofLp h) 1; simp [vec3] at this
  rw [parallelTol_default, NearParallel]
  simp only [hne1, hne2, false_or, cosE, inner3]
  simp [vec3]; norm_num

/-! ## C30 for planes -/

open Classical in
/-- C30: `is_close` on planes. -/
theorem C30_plane_is_close {p m q k : E n} {P Q : Plane ℝ}
    (hP : Plane.new (arr p) (arr m) = .ok P) (hQ : Plane.new (arr q) (arr k) = .ok Q) :
    P.isClose Tol.default (.plane Q) = .ok (decide (q ∈ planeSet p m ∧ NearParallel m k)) ∧
    (planeSet p m = planeSet q k → P.isClose Tol.default (.plane Q) = .ok true) ∧
    P.isClose Tol.default (.plane P) = .ok true ∧
    (∀ o : Obj ℝ, (∀ l, o ≠ .plane l) → ∀ tol, ∃ msg, P.isClose tol o = .error (.typeError msg)) := by
  obtain ⟨hn, hm, rfl⟩ := Plane.new_ok hP
  obtain ⟨-, hk, rfl⟩ := Plane.new_ok hQ
  have hval : ∀ q k : E n, Plane.isClose Tol.default ⟨arr p, arr m⟩ (.plane ⟨arr q, arr k⟩) =
      .ok (decide (q ∈ planeSet p m ∧ NearParallel m k)) := by
    intro q k
    simp [Plane.isClose, Plane.containsPoint_default_arr p q hm]
  have hself : ∀ a b : E n, a ∈ planeSet a b := by intro a b; simp [planeSet]
  have hsame : planeSet p m = planeSet q k → q ∈ planeSet p m ∧ NearParallel m k := by
    intro h
    have h1 : q ∈ planeSet p m := by rw [h]; exact hself _ _
    refine ⟨h1, ?_⟩
    have hmn : ‖m‖ ≠ 0 := norm_ne_zero_iff.mpr hm
    set u := k - (inner ℝ m k / ‖m‖ ^ 2) • m with hu
    have hum : (inner ℝ m u : ℝ) = 0 := by
      rw [hu, inner_sub_right, real_inner_smul_right, real_inner_self_eq_norm_sq]; field_simp; ring
    have h2 : p + u ∈ planeSet q k := by
      rw [← h, mem_planeSet, add_sub_cancel_left, hum]
    have h3 : p ∈ planeSet q k := by rw [← h]; exact hself _ _
    rw [mem_planeSet] at h2 h3
    rw [add_sub_right_comm, inner_add_right, h3, zero_add] at h2
    have h4 : (inner ℝ u u : ℝ) = 0 := by
      have hk' : u + (inner ℝ m k / ‖m‖ ^ 2) • m = k := by rw [hu]; abel
      rw [← hk', inner_add_left, real_inner_smul_left, hum] at h2
      linarith
    have h5 : u = 0 := inner_self_eq_zero.mp h4
    have h6 : k = (inner ℝ m k / ‖m‖ ^ 2) • m := by
      rw [hu] at h5; exact sub_eq_zero.mp h5
    rw [h6]
    exact nearParallel_smul _
  refine ⟨hval q k, fun h => ?_, ?_, ?_⟩
  · rw [hval, decide_eq_true (hsame h)]
  · rw [hval, decide_eq_true]
    refine ⟨hself _ _, ?_⟩
    have := nearParallel_smul (x := m) 1
    rwa [one_smul] at this
  · intro o ho tol
    cases o with
    | plane l => exact absurd rfl (ho l)
    | _ => exact ⟨_, rfl⟩

/-! ## C41 -/

theorem zipWith_map_same {α β γ δ : Type} (f : β → γ → δ) (g : α → β) (h : α → γ) (l : List α) :
    List.zipWith f (l.map g) (l.map h) = l.map fun x => f (g x) (h x) := by
  induction l with
  | nil => rfl
  | cons x xs ih => simp [ih]

theorem meshToPoints_grid (lx ly : List ℝ) (f g h : ℝ → ℝ → ℝ) :
    meshToPoints (ly.map fun y => lx.map fun x => f x y) (ly.map fun y => lx.map fun x => g x y)
      (ly.map fun y => lx.map fun x => h x y) =
      (limPairs lx ly).map fun q => [f q.1 q.2, g q.1 q.2, h q.1 q.2] := by
  have key : ∀ k : ℝ → ℝ → ℝ, (ly.map fun y => lx.map fun x => k x y).flatten =
      (limPairs lx ly).map fun q => k q.1 q.2 := by
    intro k
    rw [limPairs, List.map_flatMap, List.flatMap_def]
    simp [Function.comp_def]
  rw [meshToPoints, key, key, key, List.zip_map', zipWith_map_same]

/-- C41: `to_mesh` / `to_points`.  One point per pair of limits, in mesh order, each on the plane; the two
coordinates that are not solved for are the base point's first two coordinates plus the limits. -/
theorem C41_to_points {p m : E n} {P : Plane ℝ} (hP : Plane.new (arr p) (arr m) = .ok P)
    (lx ly : List ℝ) (hx : lx ≠ []) (hy : ly ≠ []) :
    (2 ≤ n → n ≤ 3 → ∃ F : ℝ × ℝ → E 3,
      (∃ X Y Z, P.toMesh lx ly = .ok (X, Y, Z) ∧ X.length = ly.length ∧ Y.length = ly.length ∧
        Z.length = ly.length ∧ (∀ r, r ∈ X ∨ r ∈ Y ∨ r ∈ Z → r.length = lx.length)) ∧
      P.toPoints lx ly = .ok (rows ((limPairs lx ly).map F)) ∧
      (∀ q, F q ∈ planeSet (pad3 p) (pad3 m)) ∧
      (pad3 m 2 ≠ 0 → ∀ q, F q 0 = pad3 p 0 + q.1 ∧ F q 1 = pad3 p 1 + q.2) ∧
      (pad3 m 2 = 0 → pad3 m 1 ≠ 0 → ∀ q, F q 0 = pad3 p 0 + q.1 ∧ F q 2 = pad3 p 1 + q.2) ∧
      (pad3 m 2 = 0 → pad3 m 1 = 0 → ∀ q, F q 1 = pad3 p 0 + q.1 ∧ F q 2 = pad3 p 1 + q.2)) ∧
    (n = 1 ∨ 3 < n → ∃ msg, P.toMesh lx ly = .error (.valueError msg)) := by
  have hP' := hP
  obtain ⟨hn, hm, rfl⟩ := Plane.new_ok hP
  constructor
  · intro h2 h3
    have hcart : Plane.cartesian ⟨arr p, arr m⟩ =
        .ok (pad3 m 0, pad3 m 1, pad3 m 2, -(inner ℝ m p : ℝ)) := by
      have h3' : ¬ 3 < n := by omega
      simp only [Plane.cartesian, Plane.dimension, length_arr, gt_iff_lt, h3', if_false,
        setDimension3_arr m h3, ok_bind, dot_arr, neg_real, arr3, pure_ok]
    have hmem : ∀ y : E 3, y ∈ planeSet (pad3 p) (pad3 m) ↔
        pad3 m 0 * y 0 + pad3 m 1 * y 1 + pad3 m 2 * y 2 + -(inner ℝ m p : ℝ) = 0 := by
      intro y
      rw [mem_planeSet, inner_sub_right, inner_pad3 h3, inner3, sub_eq_add_neg]
    have hpt : ∃ rest, arr p = pad3 p 0 :: pad3 p 1 :: rest := by
      obtain ⟨k, rfl⟩ : ∃ k, n = k + 2 := ⟨n - 2, by omega⟩
      refine ⟨(arr p).drop 2, ?_⟩
      rw [arr, List.ofFn_succ, List.ofFn_succ]
      simp [padTo]
    obtain ⟨rest, hpt⟩ := hpt
    have hpm : pad3 m ≠ 0 := by
      intro h0; apply hm; apply pad3_injective h3; rw [h0]; ext i; simp [padTo]
    set a := pad3 m 0 with ha
    set b := pad3 m 1 with hb
    set c := pad3 m 2 with hc
    set d : ℝ := -(inner ℝ m p : ℝ) with hd
    set u := pad3 p 0
    set v := pad3 p 1
    have hpairs : ∀ F : ℝ × ℝ → E 3, newPoints (rows ((limPairs lx ly).map F)) =
        .ok (rows ((limPairs lx ly).map F)) := by
      intro F
      apply newPoints_rows
      simp only [limPairs, ne_eq, List.map_eq_nil_iff, List.flatMap_eq_nil_iff, not_forall]
      obtain ⟨y, hy'⟩ := List.exists_mem_of_ne_nil ly hy
      exact ⟨y, hy', by simpa using hx⟩
    have hgrid : ∀ f g h : ℝ → ℝ → ℝ, meshToPoints (ly.map fun y => lx.map fun x => f x y)
        (ly.map fun y => lx.map fun x => g x y) (ly.map fun y => lx.map fun x => h x y) =
        rows ((limPairs lx ly).map fun q => vec3 (f q.1 q.2) (g q.1 q.2) (h q.1 q.2)) := by
      intro f g h
      rw [meshToPoints_grid]
      simp [rows, arr3, vec3]
    have hmesh : Plane.toMesh ⟨arr p, arr m⟩ lx ly =
        if c ≠ 0 then .ok (ly.map fun _ => lx.map fun x => u + x, ly.map fun y => lx.map fun _ => v + y,
          ly.map fun y => lx.map fun x => -(a * (u + x) + b * (v + y) + d) / c)
        else if b ≠ 0 then .ok (ly.map fun _ => lx.map fun x => u + x,
          ly.map fun y => lx.map fun x => -(a * (u + x) + c * (v + y) + d) / b,
          ly.map fun y => lx.map fun _ => v + y)
        else .ok (ly.map fun y => lx.map fun x => -(b * (u + x) + c * (v + y) + d) / a,
          ly.map fun _ => lx.map fun x => u + x, ly.map fun y => lx.map fun _ => v + y) := by
      have e : ∀ (r s t : ℝ), List.zipWith (List.zipWith fun x y => -(r * x + s * y + d) / t)
          (ly.map fun _ => lx.map fun x => u + x) (ly.map fun y => lx.map fun _ => v + y) =
          ly.map fun y => lx.map fun x => -(r * (u + x) + s * (v + y) + d) / t := by
        intro r s t
        rw [zipWith_map_same]
        apply List.map_congr_left
        intro y _
        rw [zipWith_map_same]
      simp only [Plane.toMesh, hcart, ok_bind]
      simp only [hpt, add_real, mul_real, neg_real, div_real, List.map_map,
        Function.comp_def, e, eq_real, zero_real, pure_ok]
      by_cases hc0 : c = 0 <;> by_cases hb0 : b = 0 <;> simp [hc0, hb0]
    by_cases hc0 : c = 0
    · by_cases hb0 : b = 0
      · have ha0 : a ≠ 0 := by
          intro ha0; apply hpm
          ext i; fin_cases i
          · exact ha0
          · exact hb0
          · exact hc0
        rw [if_neg (by simpa using hc0), if_neg (by simpa using hb0)] at hmesh
        refine ⟨fun q => vec3 (-(b * (u + q.1) + c * (v + q.2) + d) / a) (u + q.1) (v + q.2),
          ⟨_, _, _, hmesh, by simp, by simp, by simp, ?_⟩, ?_, ?_, fun h => absurd hc0 h,
          fun _ h => absurd hb0 h, fun _ _ q => by simp [vec3]⟩
        · rintro r (h | h | h) <;> obtain ⟨y, -, rfl⟩ := List.mem_map.mp h <;> simp
        · simp only [Plane.toPoints, hmesh, ok_bind]
          rw [hgrid (fun x y => -(b * (u + x) + c * (v + y) + d) / a) (fun x _ => u + x)
            (fun _ y => v + y), hpairs]
        · intro q
          rw [hmem]; simp [vec3]; field_simp; ring
      · rw [if_neg (by simpa using hc0), if_pos hb0] at hmesh
        refine ⟨fun q => vec3 (u + q.1) (-(a * (u + q.1) + c * (v + q.2) + d) / b) (v + q.2),
          ⟨_, _, _, hmesh, by simp, by simp, by simp, ?_⟩, ?_, ?_, fun h => absurd hc0 h,
          fun _ _ q => by simp [vec3], fun _ h => absurd h hb0⟩
        · rintro r (h | h | h) <;> obtain ⟨y, -, rfl⟩ := List.mem_map.mp h <;> simp
        · simp only [Plane.toPoints, hmesh, ok_bind]
          rw [hgrid (fun x _ => u + x) (fun x y => -(a * (u + x) + c * (v + y) + d) / b)
            (fun _ y => v + y), hpairs]
        · intro q
          rw [hmem]; simp [vec3]; field_simp; ring
    · rw [if_pos hc0] at hmesh
      refine ⟨fun q => vec3 (u + q.1) (v + q.2) (-(a * (u + q.1) + b * (v + q.2) + d) / c),
        ⟨_, _, _, hmesh, by simp, by simp, by simp, ?_⟩, ?_, ?_, fun _ q => by simp [vec3],
        fun h => absurd h hc0, fun h => absurd h hc0⟩
      · rintro r (h | h | h) <;> obtain ⟨y, -, rfl⟩ := List.mem_map.mp h <;> simp
      · simp only [Plane.toPoints, hmesh, ok_bind]
        rw [hgrid (fun x _ => u + x) (fun _ y => v + y)
          (fun x y => -(a * (u + x) + b * (v + y) + d) / c), hpairs]
      · intro q
        rw [hmem]; simp [vec3]; field_simp; ring
  · rintro (h | h)
    · subst h
      obtain ⟨hc, -⟩ := C34_cartesian hP'
      obtain ⟨a, b, c, d, hc, -⟩ := hc (by norm_num)
      refine ⟨"not enough values to unpack (expected 2, got 1)", ?_⟩
      simp only [Plane.toMesh, hc, ok_bind]
      simp only [arr1]
    · obtain ⟨-, hc⟩ := C34_cartesian hP'
      obtain ⟨msg, hc⟩ := hc h
      exact ⟨msg, by simp [Plane.toMesh, hc]⟩

end SkSpatial
