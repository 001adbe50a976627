import Verif.Spec.Geometry
import Verif.Lemmas.Line
import Verif.Props.Vector2
import Verif.Props.Points
/-! # C23 - C30, C32: lines

A constructed line is written `Line.new (arr p) (arr d) = .ok L`; its set of points is `lineSet p d`. -/

namespace SkSpatial

variable {n : ℕ}

/-! ## C23 -/

/-- C23: `Line.from_points`. -/
theorem C23_from_points [NeZero n] (a b : E n) :
    (a = b → ∃ msg, Line.fromPoints (arr a) (arr b) = .error (.valueError msg)) ∧
    (a ≠ b → ∃ L, Line.fromPoints (arr a) (arr b) = .ok L ∧ L.toPoint 0 = .ok (arr a) ∧
      L.toPoint 1 = .ok (arr b) ∧ Line.new (arr a) (arr (b - a)) = .ok L) := by
  constructor
  · rintro rfl
    exact ⟨_, by simp [Line.fromPoints, Line.new, newLinePlane]; rfl⟩
  · intro h
    have hd : b - a ≠ 0 := sub_ne_zero.mpr (Ne.symm h)
    refine ⟨⟨arr a, arr (b - a)⟩, ?_, ?_, ?_, Line.new_arr a hd⟩
    · simp [Line.fromPoints, Line.new_arr a hd]
    · simp
    · simp

/-- C23: `Line.from_slope(m, b)` never fails and contains exactly the points with `y = m x + b`. -/
theorem C23_from_slope (m b : ℝ) :
    ∃ (L : Line ℝ) (p d : E 2), Line.fromSlope m b = .ok L ∧ Line.new (arr p) (arr d) = .ok L ∧
      ∀ x : E 2, x ∈ lineSet p d ↔ x 1 = m * x 0 + b := by
  have hd : vec2 1 m ≠ 0 := by
    intro h; have := congrFun (congrArg WithLp.ofLp h) 0; simp [vec2] at this
  have h := Line.new_arr (vec2 0 b) hd
  refine ⟨_, vec2 0 b, vec2 1 m, ?_, h, fun x => ?_⟩
  · rw [← h]; simp [Line.fromSlope, arr2, vec2]
  · constructor
    · rintro ⟨t, rfl⟩; simp [vec2]; ring
    · intro hx
      refine ⟨x 0, ?_⟩
      ext i; fin_cases i
      · simp [vec2]
      · simp [vec2, hx]; ring

/-- C23: `to_point` ranges over exactly the points of the line, injectively. -/
theorem C23_to_point {p d : E n} {L : Line ℝ} (hL : Line.new (arr p) (arr d) = .ok L) :
    (∀ t : ℝ, L.toPoint t = .ok (arr (p + t • d))) ∧
    (∀ x : E n, x ∈ lineSet p d ↔ ∃ t : ℝ, L.toPoint t = .ok (arr x)) ∧
    (∀ s t : ℝ, L.toPoint s = L.toPoint t → s = t) := by
  obtain ⟨hn, hd, rfl⟩ := Line.new_ok hL
  refine ⟨fun t => by simp, fun x => ?_, fun s t h => ?_⟩
  · simp [lineSet, eq_comm]
  · rw [Line.toPoint_arr, Line.toPoint_arr, Except.ok.injEq, arr_inj, add_right_inj] at h
    exact smul_left_injective ℝ hd h

/-! ## C24 -/

open Classical in
/-- C24: `project_point` is the unique nearest point of the line; `distance_point` and `contains_point`. -/
theorem C24_project_point {p d : E n} {L : Line ℝ} (hL : Line.new (arr p) (arr d) = .ok L) (x : E n) :
    ∃ q : E n, L.projectPoint (arr x) = .ok (arr q) ∧ q ∈ lineSet p d ∧ inner ℝ (x - q) d = (0 : ℝ) ∧
      (∀ y ∈ lineSet p d, dist x q ≤ dist x y) ∧ (∀ y ∈ lineSet p d, dist x y = dist x q → y = q) ∧
      (x ∈ lineSet p d → q = x) ∧ L.distancePoint (arr x) = .ok (dist x q) ∧
      (L.distancePoint (arr x) = .ok 0 ↔ x ∈ lineSet p d) ∧
      L.containsPoint Tol.default (arr x) = .ok (decide (x ∈ lineSet p d)) := by
  obtain ⟨hn, hd, rfl⟩ := Line.new_ok hL
  refine ⟨footE p d x, by simp, footE_mem p d x, footE_perp p hd x, fun y hy => footE_le p hd x y hy,
    fun y hy h => footE_unique p hd x y hy h, fun h => footE_self hd h, by simp, ?_, ?_⟩
  · rw [Line.distancePoint_arr, Except.ok.injEq, dist_footE_eq_zero hd]
  · exact Line.containsPoint_default_arr p x hd

example : Line.new (arr (vec2 0 1)) (arr (vec2 1 0)) = .ok ⟨[0, 1], [1, 0]⟩ := by
  rw [Line.new_arr]
  · simp [arr2, vec2]
  · intro h; have := congrFun (congrArg WithLp.ofLp h) 0; simp [vec2] at this

/-! ## C25 -/

/-- C25: the batch methods agree with the single-point methods, row by row. -/
theorem C25_batch {p d : E n} {L : Line ℝ} (hL : Line.new (arr p) (arr d) = .ok L) {P : List (E n)}
    (hP : P ≠ []) :
    ∃ (Q : List (E n)) (ds : List ℝ), L.projectPoints (rows P) = .ok (rows Q) ∧
      L.distancePoints (rows P) = .ok ds ∧
      List.Forall₂ (fun x q => L.projectPoint (arr x) = .ok (arr q)) P Q ∧
      List.Forall₂ (fun x r => L.distancePoint (arr x) = .ok r) P ds ∧
      L.sumSquares (rows P) = .ok (ds.map fun r => r ^ 2).sum := by
  obtain ⟨hn, hd, rfl⟩ := Line.new_ok hL
  refine ⟨_, _, Line.projectPoints_arr p hd hP, Line.distancePoints_arr p hd hP, ?_, ?_, ?_⟩
  · rw [List.forall₂_map_right_iff]; simp
  · rw [List.forall₂_map_right_iff]; simp
  · rw [Line.sumSquares_arr p d hP]; simp [Function.comp_def]

/-! ## C26 -/

/-- C26: `side_point` of a 2D line: the sign of `d_y (x - p)_x - d_x (x - p)_y`. -/
theorem C26_side_point {p d : E 2} {L : Line ℝ} (hL : Line.new (arr p) (arr d) = .ok L) (x : E 2) :
    ∃ s : ℤ, L.sidePoint (arr x) = .ok s ∧ (s = 0 ↔ x ∈ lineSet p d) ∧
      (s = 1 ↔ 0 < d 1 * (x - p) 0 - d 0 * (x - p) 1) ∧
      (s = -1 ↔ d 1 * (x - p) 0 - d 0 * (x - p) 1 < 0) ∧
      (∀ (p' : E 2) (c : ℝ) (L' : Line ℝ), p' ∈ lineSet p d → 0 < c →
        Line.new (arr p') (arr (c • d)) = .ok L' → L'.sidePoint (arr x) = .ok s) ∧
      (∀ L' : Line ℝ, Line.new (arr p) (arr (-d)) = .ok L' → L'.sidePoint (arr x) = .ok (-s)) := by
  obtain ⟨hn, hd, rfl⟩ := Line.new_ok hL
  have hval : ∀ q e : E 2, Line.sidePoint ⟨arr q, arr e⟩ (arr x) = Vec.sideVector (arr e) (arr (x - q)) := by
    intro q e; simp [Line.sidePoint]
  obtain ⟨s, h0, hs, h1, h2, h3⟩ := sideVector_arr d (x - p)
  have hinj : ∀ a b : ℤ, (a : ℝ) = b → a = b := fun a b h => by exact_mod_cast h
  refine ⟨s, by rw [hval, h0], ?_, h1, h2, ?_, ?_⟩
  · rw [h3]
    constructor
    · intro h
      have hne : ‖d‖ ^ 2 ≠ 0 := by
        have := norm_ne_zero_iff.mpr hd; positivity
      refine ⟨inner ℝ d (x - p) / ‖d‖ ^ 2, ?_⟩
      rw [eq_comm, ← eq_sub_iff_add_eq']
      rw [div_eq_inv_mul, ← smul_smul]
      rw [inv_smul_eq_iff₀ hne]
      rw [norm_sq2, inner2]
      ext i; fin_cases i
      · simp at h ⊢; linear_combination (-d 1) * h
      · simp at h ⊢; linear_combination (d 0) * h
    · rintro ⟨t, rfl⟩; simp; ring
  · rintro p' c L' ⟨t, rfl⟩ hc hL'
    obtain ⟨-, -, rfl⟩ := Line.new_ok hL'
    obtain ⟨s', g0, gs, -⟩ := sideVector_arr (c • d) (x - (p + t • d))
    rw [hval, g0]; congr 1
    apply hinj
    rw [gs, hs]
    simp only [PiLp.smul_apply, PiLp.sub_apply, PiLp.add_apply, smul_eq_mul]
    rw [show c * d 1 * (x 0 - (p 0 + t * d 0)) - c * d 0 * (x 1 - (p 1 + t * d 1)) =
      c * (d 1 * (x 0 - p 0) - d 0 * (x 1 - p 1)) by ring, sign_mul, sign_pos hc, one_mul]
  · intro L' hL'
    obtain ⟨-, -, rfl⟩ := Line.new_ok hL'
    obtain ⟨s', g0, gs, -⟩ := sideVector_arr (-d) (x - p)
    rw [hval, g0]; congr 1
    apply hinj
    push_cast
    rw [gs, hs]
    simp only [PiLp.neg_apply, PiLp.sub_apply]
    rw [show -d 1 * (x 0 - p 0) - -d 0 * (x 1 - p 1) = -(d 1 * (x 0 - p 0) - d 0 * (x 1 - p 1)) by ring,
      Left.sign_neg]
    push_cast; rfl

/-! ## Two lines: linear independence and the closest points -/

/-- The decomposition of a vector along two vectors and their cross product. -/
theorem cross_decomp (u v w : E 3) : (‖crossE u v‖ ^ 2) • w =
    (inner ℝ (crossE w v) (crossE u v) : ℝ) • u + (inner ℝ (crossE u w) (crossE u v) : ℝ) • v +
      (inner ℝ w (crossE u v) : ℝ) • crossE u v := by
  rw [norm_sq3, inner3, inner3, inner3]
  ext i
  fin_cases i <;> simp [crossE, vec3] <;> ring

theorem pad3_linearIndependent (hn : n ≤ 3) {u v : E n} (h : LinearIndependent ℝ ![u, v]) :
    LinearIndependent ℝ ![pad3 u, pad3 v] := by
  rw [LinearIndependent.pair_iff] at h ⊢
  intro s t hst
  apply h
  apply pad3_injective hn
  rw [pad3_add, pad3_smul, pad3_smul, hst]
  ext i; simp [padTo]

theorem dist_pad3 (hn : n ≤ 3) (x y : E n) : dist (pad3 x) (pad3 y) = dist x y := by
  rw [dist_eq_norm, dist_eq_norm, ← pad3_sub, norm_pad3 hn]

theorem independent_of_not_near {u v : E n} (h : ¬ NearParallel u v) : LinearIndependent ℝ ![u, v] := by
  by_contra hc; exact h (nearParallel_of_dependent hc)

theorem parallelTol_of_dependent {tol : Tol ℝ} (ht : tol.Nonneg) {x y : E n} (h : ExactParallel x y) :
    ParallelTol tol x y := by
  unfold ExactParallel at h
  by_cases hx : x = 0
  · left; rw [hx]; simpa using Close.refl ht 0
  · by_cases hy : y = 0
    · right; left; rw [hy]; simpa using Close.refl ht 0
    · right; right
      rw [LinearIndependent.pair_iff] at h
      push Not at h
      obtain ⟨a, b, hab, hne⟩ := h
      have hb : b ≠ 0 := by
        intro hb
        have ha : a ≠ 0 := fun ha => hne ha hb
        subst hb
        simp [ha, hx] at hab
      have ha : a ≠ 0 := by
        intro ha; subst ha; simp [hb, hy] at hab
      have : y = (-a / b) • x := by
        have h1 : b • y = (-a) • x := by rw [neg_smul]; exact eq_neg_of_add_eq_zero_right hab
        rw [div_eq_inv_mul, ← smul_smul, ← h1, smul_smul, inv_mul_cancel₀ hb, one_smul]
      rw [this, abs_cosE_self_smul (div_ne_zero (neg_ne_zero.mpr ha) hb) hx]
      exact Close.refl ht 1

/-- The four points whose coplanarity `is_coplanar` tests. -/
theorem coplanar_iff_meet {p q d e : E n} (hli : LinearIndependent ℝ ![d, e]) :
    Coplanar ℝ ({x | x ∈ [p, p + d, q, q + e]} : Set (E n)) ↔ ∃ a b : ℝ, q - p = a • d + b • e := by
  have hsub : Submodule.span ℝ {d, e} ≤ vectorSpan ℝ ({x | x ∈ [p, p + d, q, q + e]} : Set (E n)) := by
    rw [Submodule.span_le]
    intro x hx
    rcases hx with rfl | rfl
    · have := vsub_mem_vectorSpan ℝ (s := ({x' | x' ∈ [p, p + x, q, q + e]} : Set (E n)))
        (p₁ := p + x) (p₂ := p) (by simp) (by simp)
      simpa using this
    · have := vsub_mem_vectorSpan ℝ (s := ({x' | x' ∈ [p, p + d, q, q + x]} : Set (E n)))
        (p₁ := q + x) (p₂ := q) (by simp) (by simp)
      simpa using this
  have hrank : Module.finrank ℝ (Submodule.span ℝ ({d, e} : Set (E n))) = 2 := by
    have := finrank_span_eq_card hli
    have hr : Set.range ![d, e] = {d, e} := by
      ext x; simp [eq_comm, or_comm]
    rw [hr] at this
    simpa using this
  rw [coplanar_iff_finrank_le_two]
  constructor
  · intro h
    have heq := Submodule.eq_of_le_of_finrank_le hsub (by omega)
    have : q - p ∈ Submodule.span ℝ {d, e} := by
      rw [heq]
      exact vsub_mem_vectorSpan ℝ (p₁ := q) (p₂ := p) (by simp) (by simp)
    obtain ⟨a, b, hab⟩ := Submodule.mem_span_pair.mp this
    exact ⟨a, b, hab.symm⟩
  · rintro ⟨a, b, hab⟩
    have hle : vectorSpan ℝ ({x | x ∈ [p, p + d, q, q + e]} : Set (E n)) ≤ Submodule.span ℝ {d, e} := by
      have hmem : ∀ x ∈ ({x | x ∈ [p, p + d, q, q + e]} : Set (E n)),
          x - p ∈ Submodule.span ℝ ({d, e} : Set (E n)) := by
        intro x hx
        simp only [List.mem_cons, List.not_mem_nil, or_false, Set.mem_ofPred_eq] at hx
        rw [Submodule.mem_span_pair]
        rcases hx with rfl | rfl | rfl | rfl
        · exact ⟨0, 0, by simp⟩
        · exact ⟨1, 0, by simp⟩
        · exact ⟨a, b, hab.symm⟩
        · refine ⟨a, b + 1, ?_⟩
          rw [add_smul, one_smul, ← add_assoc, ← hab]; abel
      rw [vectorSpan_def, Submodule.span_le]
      rintro _ ⟨x, hx, y, hy, rfl⟩
      have : x -ᵥ y = (x - p) - (y - p) := by simp
      show x -ᵥ y ∈ _
      rw [this]
      exact Submodule.sub_mem _ (hmem x hx) (hmem y hy)
    have := Submodule.finrank_mono hle
    omega

/-- The two lines have a common point. -/
theorem meet_iff {p q d e : E n} : (∃ a b : ℝ, q - p = a • d + b • e) ↔
    ∃ x, x ∈ lineSet p d ∧ x ∈ lineSet q e := by
  constructor
  · rintro ⟨a, b, h⟩
    refine ⟨p + a • d, ⟨a, rfl⟩, -b, ?_⟩
    rw [neg_smul, ← sub_eq_add_neg, eq_sub_iff_add_eq, add_assoc, ← h]; abel
  · rintro ⟨x, ⟨a, rfl⟩, b, h⟩
    refine ⟨a, -b, ?_⟩
    rw [neg_smul, ← sub_eq_add_neg, eq_sub_iff_add_eq, sub_add_eq_add_sub, ← h]; abel

section
variable [NumpyExt ℝ]

theorem Line.isCoplanar_arr [NeZero n] (tol : Option ℝ) (p d q e : E n) :
    Line.isCoplanar tol ⟨arr p, arr d⟩ (.line ⟨arr q, arr e⟩) =
      Pts.areCoplanar tol (rows [p, p + d, q, q + e]) := by
  have h := newPoints_rows (P := [p, p + d, q, q + e]) (by simp)
  simp only [rows, List.map_cons, List.map_nil] at h
  simp [Line.isCoplanar, rows, h]

variable [LawfulNumpy]

theorem isCoplanar_true_of_meet [NeZero n] {p d q e : E n} (hli : LinearIndependent ℝ ![d, e])
    (h : ∃ x, x ∈ lineSet p d ∧ x ∈ lineSet q e) (tol : Option ℝ) (ht : ∀ t, tol = some t → 0 ≤ t) :
    Line.isCoplanar tol ⟨arr p, arr d⟩ (.line ⟨arr q, arr e⟩) = .ok true := by
  obtain ⟨b0, b1, b2, -, -, h2, -, -, hc, -⟩ :=
    C22_predicates (P := [p, p + d, q, q + e]) (by simp) tol ht
  rw [Line.isCoplanar_arr, h2, hc ((coplanar_iff_meet hli).mpr (meet_iff.mpr h))]

end

/-- The common perpendicular of two non-parallel lines in dimension at most 3: the parameters of the two
closest points, and what they satisfy. -/
theorem closest_points (hn : n ≤ 3) {p d q e : E n} (hli : LinearIndependent ℝ ![d, e]) :
    let N := crossE (pad3 d) (pad3 e)
    let w := pad3 (q - p)
    let a := (inner ℝ (crossE w (pad3 e)) N : ℝ) / ‖N‖ ^ 2
    let b := (inner ℝ (crossE (pad3 d) w) N : ℝ) / ‖N‖ ^ 2
    N ≠ 0 ∧ dist (p + a • d) (q - b • e) = |(inner ℝ w N : ℝ)| / ‖N‖ ∧
      (∀ x ∈ lineSet p d, ∀ y ∈ lineSet q e, dist (p + a • d) (q - b • e) ≤ dist x y) := by
  intro N w a b
  have hN : N ≠ 0 := by
    intro h
    exact (crossE_eq_zero_iff _ _).mp h (pad3_linearIndependent hn hli)
  have hNn : 0 < ‖N‖ := norm_pos_iff.mpr hN
  have hdec := cross_decomp (pad3 d) (pad3 e) w
  have hw : w = a • pad3 d + b • pad3 e + ((inner ℝ w N : ℝ) / ‖N‖ ^ 2) • N := by
    have h2 : ‖N‖ ^ 2 ≠ 0 := by positivity
    have := congrArg (fun z => (‖N‖ ^ 2)⁻¹ • z) hdec
    simp only [smul_add, smul_smul] at this
    rw [inv_mul_cancel₀ h2, one_smul] at this
    simp only [a, b, div_eq_inv_mul]
    exact this
  have hdN : inner ℝ (pad3 d) N = (0 : ℝ) := by rw [real_inner_comm]; exact crossE_inner_left _ _
  have heN : inner ℝ (pad3 e) N = (0 : ℝ) := by rw [real_inner_comm]; exact crossE_inner_right _ _
  -- every connecting vector has the same component along N
  have hcomp : ∀ s t : ℝ, |(inner ℝ w N : ℝ)| / ‖N‖ ≤ dist (p + s • d) (q + t • e) := by
    intro s t
    rw [div_le_iff₀ hNn, dist_comm, ← dist_pad3 hn, dist_eq_norm, ← pad3_sub]
    have e1 : pad3 (q + t • e - (p + s • d)) = w + t • pad3 e - s • pad3 d := by
      rw [show q + t • e - (p + s • d) = (q - p) + t • e - s • d by abel, pad3_sub, pad3_add, pad3_smul,
        pad3_smul]
    have e2 : (inner ℝ w N : ℝ) = inner ℝ (pad3 (q + t • e - (p + s • d))) N := by
      rw [e1, inner_sub_left, inner_add_left, real_inner_smul_left, real_inner_smul_left, hdN, heN]; ring
    rw [e2]
    exact abs_real_inner_le_norm _ _
  have hval : dist (p + a • d) (q - b • e) = |(inner ℝ w N : ℝ)| / ‖N‖ := by
    rw [dist_comm, ← dist_pad3 hn, dist_eq_norm, ← pad3_sub]
    have e1 : pad3 (q - b • e - (p + a • d)) = ((inner ℝ w N : ℝ) / ‖N‖ ^ 2) • N := by
      rw [show q - b • e - (p + a • d) = (q - p) - b • e - a • d by abel, pad3_sub, pad3_sub, pad3_smul,
        pad3_smul]
      conv_lhs => rw [show pad3 (q - p) = w from rfl, hw]
      abel_nf
    rw [e1, norm_smul, Real.norm_eq_abs, abs_div, abs_pow, abs_norm]
    field_simp
  refine ⟨hN, hval, ?_⟩
  rintro x ⟨s, rfl⟩ y ⟨t, rfl⟩
  rw [hval]; exact hcomp s t

/-! ## C27 -/

theorem lineDistances_comm (p d q e : E n) : lineDistances p d q e = lineDistances q e p d := by
  ext r
  constructor
  · rintro ⟨x, hx, y, hy, rfl⟩; exact ⟨y, hy, x, hx, dist_comm x y⟩
  · rintro ⟨x, hx, y, hy, rfl⟩; exact ⟨y, hy, x, hx, dist_comm x y⟩

section
variable [NumpyExt ℝ]

omit [NumpyExt ℝ] in
theorem exactParallel_smul {d e : E n} (hd : d ≠ 0) (he : e ≠ 0) (h : ExactParallel d e) :
    ∃ c : ℝ, c ≠ 0 ∧ e = c • d := by
  unfold ExactParallel at h
  rw [LinearIndependent.pair_iff] at h
  push Not at h
  obtain ⟨a, b, hab, hne⟩ := h
  have hb : b ≠ 0 := by
    intro hb
    have ha : a ≠ 0 := fun ha => hne ha hb
    subst hb
    simp [ha, hd] at hab
  have : e = (-a / b) • d := by
    have h1 : b • e = (-a) • d := by rw [neg_smul]; exact eq_neg_of_add_eq_zero_right hab
    rw [div_eq_inv_mul, ← smul_smul, ← h1, smul_smul, inv_mul_cancel₀ hb, one_smul]
  refine ⟨_, ?_, this⟩
  intro h0; rw [h0, zero_smul] at this; exact he this

/-- C27: exactly parallel lines (any dimension): the minimal distance, whichever line is asked. -/
theorem C27_distance_line_parallel {p d q e : E n} {L M : Line ℝ}
    (hL : Line.new (arr p) (arr d) = .ok L) (hM : Line.new (arr q) (arr e) = .ok M)
    (hpar : ExactParallel d e) :
    ∃ r : ℝ, L.distanceLine M = .ok r ∧ IsLeast (lineDistances p d q e) r ∧ M.distanceLine L = .ok r := by
  obtain ⟨hn, hd, rfl⟩ := Line.new_ok hL
  obtain ⟨-, he, rfl⟩ := Line.new_ok hM
  have key : ∀ p d q e : E n, d ≠ 0 → e ≠ 0 → ExactParallel d e →
      ∃ r : ℝ, Line.distanceLine ⟨arr p, arr d⟩ ⟨arr q, arr e⟩ = .ok r ∧
        IsLeast (lineDistances p d q e) r := by
    intro p d q e hd he hpar
    refine ⟨dist q (footE p d q), by simp [Line.distanceLine, nearParallel_of_dependent hpar], ?_, ?_⟩
    · exact ⟨_, footE_mem p d q, q, ⟨0, by simp⟩, dist_comm _ _⟩
    · rintro r ⟨x, ⟨s, rfl⟩, y, ⟨t, rfl⟩, rfl⟩
      obtain ⟨c, -, rfl⟩ := exactParallel_smul hd he hpar
      have h1 : dist q (p + s • d - (t * c) • d) = dist (p + s • d) (q + t • c • d) := by
        rw [dist_comm, dist_eq_norm, dist_eq_norm, smul_smul]; congr 1; abel
      rw [← h1]
      apply footE_le p hd
      exact ⟨s - t * c, by rw [sub_smul]; abel⟩
  obtain ⟨r, h1, h2⟩ := key p d q e hd he hpar
  obtain ⟨r', h3, h4⟩ := key q e p d he hd (by
    unfold ExactParallel at hpar ⊢
    rwa [LinearIndependent.pair_symm_iff])
  rw [lineDistances_comm] at h4
  have : r = r' := h2.unique h4
  subst this
  exact ⟨r, h1, h2, h3⟩

variable [LawfulNumpy]

theorem isCoplanar_symm [NeZero n] (p d q e : E n) :
    Line.isCoplanar none ⟨arr q, arr e⟩ (.line ⟨arr p, arr d⟩) =
      Line.isCoplanar none ⟨arr p, arr d⟩ (.line ⟨arr q, arr e⟩) := by
  rw [Line.isCoplanar_arr, Line.isCoplanar_arr]
  obtain ⟨b0, b1, b2, -, -, h2, -, -, -, -, -, hperm, -⟩ :=
    C22_predicates (P := [p, p + d, q, q + e]) (by simp) none (by simp)
  rw [h2, (hperm [q, q + e, p, p + d] (by intro x; simp; tauto)).2.2]

/-- C27: lines not accepted as parallel, in dimension at most 3.  If the coplanarity test is exact on
them (it answers "no", or the lines really meet) the result is the minimal distance; if it answers "yes"
the result is `0`; in 2D the result is always the minimal distance; the result is symmetric. -/
theorem C27_distance_line_skew {p d q e : E n} {L M : Line ℝ} (hn3 : n ≤ 3)
    (hL : Line.new (arr p) (arr d) = .ok L) (hM : Line.new (arr q) (arr e) = .ok M)
    (hpar : ¬ NearParallel d e) :
    ∃ r : ℝ, L.distanceLine M = .ok r ∧ M.distanceLine L = .ok r ∧
      (L.isCoplanar none (.line M) = .ok true → r = 0) ∧
      (L.isCoplanar none (.line M) = .ok false ∨ (∃ x, x ∈ lineSet p d ∧ x ∈ lineSet q e) ∨ n ≤ 2 →
        IsLeast (lineDistances p d q e) r) := by
  obtain ⟨hn, hd, rfl⟩ := Line.new_ok hL
  obtain ⟨-, he, rfl⟩ := Line.new_ok hM
  have hli := independent_of_not_near hpar
  have hpar' : ¬ NearParallel e d := fun h => hpar (nearParallel_comm.mp h)
  obtain ⟨b, hb⟩ : ∃ b, Line.isCoplanar none ⟨arr p, arr d⟩ (.line ⟨arr q, arr e⟩) = .ok b := by
    rw [Line.isCoplanar_arr]
    obtain ⟨_, _, b2, -, -, h2, -⟩ := C22_predicates (P := [p, p + d, q, q + e]) (by simp) none (by simp)
    exact ⟨b2, h2⟩
  have hb' := isCoplanar_symm p d q e
  rw [hb] at hb'
  have hmeet2 : n ≤ 2 → ∃ x, x ∈ lineSet p d ∧ x ∈ lineSet q e := by
    intro h2
    rw [← meet_iff, ← coplanar_iff_meet hli, coplanar_iff_finrank_le_two]
    have := Submodule.finrank_le (vectorSpan ℝ ({x | x ∈ [p, p + d, q, q + e]} : Set (E n)))
    rw [finrank_euclideanSpace_fin] at this
    omega
  obtain ⟨hN, hval, hle⟩ := closest_points hn3 (p := p) (q := q) hli
  cases b with
  | true =>
    refine ⟨0, by simp [Line.distanceLine, hpar, hb], by simp [Line.distanceLine, hpar', hb'],
      fun _ => rfl, ?_⟩
    intro h
    have hm : ∃ x, x ∈ lineSet p d ∧ x ∈ lineSet q e := by
      rcases h with h | h | h
      · simp [hb] at h
      · exact h
      · exact hmeet2 h
    obtain ⟨x, hx1, hx2⟩ := hm
    refine ⟨⟨x, hx1, x, hx2, by simp⟩, ?_⟩
    rintro r ⟨x, -, y, -, rfl⟩
    exact dist_nonneg
  | false =>
    -- in 2D the test cannot answer "no"
    have h3 : n = 3 := by
      by_contra hne
      have := isCoplanar_true_of_meet hli (hmeet2 (by omega)) none (by simp)
      rw [hb] at this
      simp at this
    subst h3
    simp only [pad3_self] at hN hval hle
    refine ⟨|(inner ℝ (q - p) (crossE d e) : ℝ)| / ‖crossE d e‖, ?_, ?_, ?_, ?_⟩
    · simp [Line.distanceLine, hpar, hb]
    · simp only [Line.distanceLine, isParallel_default_arr, hpar', decide_false, ok_bind, hb',
        fromPoints_arr, cross_arr3, dot_arr, norm_arr, pure_ok, abs_real, div_real]
      rw [crossE_anticomm d e, inner_neg_right, norm_neg, ← inner_neg_left, neg_sub]
      simp
    · intro h; simp [hb] at h
    · intro _
      rw [← hval]
      refine ⟨⟨_, ⟨_, rfl⟩, _, ⟨-((inner ℝ (crossE d (q - p)) (crossE d e) : ℝ) / ‖crossE d e‖ ^ 2),
        ?_⟩, rfl⟩, ?_⟩
      · rw [neg_smul, sub_eq_add_neg]
      · rintro r ⟨x, hx, y, hy, rfl⟩
        exact hle x hx y hy

omit [LawfulNumpy] in
/-- C27, the gap: two 2D lines with a common point (so with distance 0) for which `distance_line`
returns 1, because it takes them for parallel. -/
theorem C27_nearly_parallel_defect : ∃ (p d q e x : E 2) (L M : Line ℝ),
    Line.new (arr p) (arr d) = .ok L ∧ Line.new (arr q) (arr e) = .ok M ∧
      x ∈ lineSet p d ∧ x ∈ lineSet q e ∧ L.distanceLine M = .ok 1 := by
  have hne : ∀ s : ℝ, vec2 1 s ≠ 0 := by
    intro s h
    have := congrFun (congrArg WithLp.ofLp h) 0
    simp [vec2] at this
  have hnear : NearParallel (vec2 1 0) (vec2 1 (1 / 25000)) := by
    right; right
    have hn0 : ‖vec2 1 0‖ = 1 := by
      rw [← Real.sqrt_sq (norm_nonneg _), norm_sq2]; simp [vec2]
    have hn1 : ‖vec2 1 (1 / 25000)‖ ≤ 1 + 9 / 10000000000 := by
      apply le_of_sq_le_sq _ (by norm_num)
      rw [norm_sq2]; norm_num [vec2]
    have hpos : 0 < ‖vec2 1 (1 / 25000)‖ := norm_pos_iff.mpr (hne _)
    rw [cosE, inner2, hn0, one_mul, abs_div, abs_norm, le_div_iff₀ hpos]
    simp only [vec2]
    norm_num
    calc (999999999 / 1000000000 : ℝ) * ‖vec2 1 (1 / 25000)‖ ≤
        999999999 / 1000000000 * (1 + 9 / 10000000000) := by
          apply mul_le_mul_of_nonneg_left _ (by norm_num)
          exact hn1
      _ ≤ 1 := by norm_num
  refine ⟨0, vec2 1 0, vec2 0 1, vec2 1 (1 / 25000), vec2 (-25000) 0, _, _, Line.new_arr _ (hne _),
    Line.new_arr _ (hne _), ⟨-25000, ?_⟩, ⟨-25000, ?_⟩, ?_⟩
  · ext i; fin_cases i <;> simp [vec2]
  · ext i; fin_cases i <;> simp [vec2]
  · have : footE 0 (vec2 1 0) (vec2 0 1) = 0 := by
      rw [footE, inner2]; simp [vec2]
    simp only [Line.distanceLine, isParallel_default_arr, hnear, decide_true, ok_bind, if_true,
      Line.distancePoint_arr, this]
    congr 1
    rw [dist_eq_norm, sub_zero]
    rw [← Real.sqrt_sq (norm_nonneg _), norm_sq2]; simp [vec2]

end

/-! ## C28, C29 -/

section
variable [NumpyExt ℝ]

/-- The parameter of the intersection point on the first line. -/
noncomputable def meetParam (p d q e : E n) : ℝ :=
  (inner ℝ (crossE (pad3 (q - p)) (pad3 e)) (crossE (pad3 d) (pad3 e)) : ℝ) /
    ‖crossE (pad3 d) (pad3 e)‖ ^ 2

theorem intersectLine_arr [NeZero n] (hn : n ≤ 3) (p d q e : E n) (check : Bool) {tol : Tol ℝ}
    (ht : tol.Nonneg) (hpar : ¬ ParallelTol tol d e)
    (hc : check = true → Line.isCoplanar none ⟨arr p, arr d⟩ (.line ⟨arr q, arr e⟩) = .ok true) :
    Line.intersectLine ⟨arr p, arr d⟩ ⟨arr q, arr e⟩ check tol =
      .ok (arr (p + meetParam p d q e • d)) := by
  have h3 : ¬ (3 < n) := by omega
  unfold Line.intersectLine Line.dimension
  cases check with
  | true =>
    simp [isParallel_arr ht, hpar, hc rfl, cross_arr hn hn, h3, meetParam]
  | false =>
    simp [isParallel_arr ht, hpar, cross_arr hn hn, h3, meetParam]

omit [NumpyExt ℝ] in
/-- If the lines meet, the parameter is that of the common point. -/
theorem meetParam_spec (hn : n ≤ 3) {p d q e : E n} (hli : LinearIndependent ℝ ![d, e])
    (h : ∃ x, x ∈ lineSet p d ∧ x ∈ lineSet q e) :
    p + meetParam p d q e • d ∈ lineSet q e := by
  obtain ⟨hN, hval, hle⟩ := closest_points hn (p := p) (q := q) hli
  obtain ⟨x, h1, h2⟩ := h
  have := hle x h1 x h2
  rw [dist_self] at this
  have h0 := dist_eq_zero.mp (le_antisymm this dist_nonneg)
  refine ⟨-((inner ℝ (crossE (pad3 d) (pad3 (q - p))) (crossE (pad3 d) (pad3 e)) : ℝ) /
    ‖crossE (pad3 d) (pad3 e)‖ ^ 2), ?_⟩
  rw [neg_smul, ← sub_eq_add_neg]
  exact h0

omit [NumpyExt ℝ] in
theorem meet_unique {p d q e : E n} (hli : LinearIndependent ℝ ![d, e]) {x y : E n}
    (hx : x ∈ lineSet p d ∧ x ∈ lineSet q e) (hy : y ∈ lineSet p d ∧ y ∈ lineSet q e) : x = y := by
  obtain ⟨⟨a, ha⟩, ⟨b, hb⟩⟩ := hx
  obtain ⟨⟨c, hc⟩, ⟨f, hf⟩⟩ := hy
  have h1 : x - y = (a - c) • d := by rw [ha, hc, sub_smul]; abel
  have h2 : x - y = (b - f) • e := by rw [hb, hf, sub_smul]; abel
  have h3 : (a - c) • d + (-(b - f)) • e = 0 := by rw [neg_smul, ← h1, ← h2]; abel
  have := (LinearIndependent.pair_iff.mp hli _ _ h3).1
  rw [this, zero_smul] at h1
  exact sub_eq_zero.mp h1

variable [LawfulNumpy]

/-- C28: lines with exactly one common point (linearly independent directions and a common point) that
are not accepted as parallel: the common point is returned, with or without the coplanarity check, from
either line; for every tolerance. -/
theorem C28_intersect_line_complete {p d q e x : E n} {L M : Line ℝ} (hn3 : n ≤ 3)
    (hL : Line.new (arr p) (arr d) = .ok L) (hM : Line.new (arr q) (arr e) = .ok M)
    (hx : x ∈ lineSet p d) (hx' : x ∈ lineSet q e) (check : Bool) {tol : Tol ℝ} (ht : tol.Nonneg)
    (hpar : Vec.isParallel tol (arr d) (arr e) = .ok false) :
    L.intersectLine M check tol = .ok (arr x) ∧ M.intersectLine L check tol = .ok (arr x) ∧
      (∀ y, y ∈ lineSet p d → y ∈ lineSet q e → y = x) := by
  obtain ⟨hn, hd, rfl⟩ := Line.new_ok hL
  obtain ⟨-, he, rfl⟩ := Line.new_ok hM
  rw [isParallel_arr ht] at hpar
  have hp : ¬ ParallelTol tol d e := by simpa using hpar
  have hp' : ¬ ParallelTol tol e d := by
    unfold ParallelTol at hp ⊢; rw [cosE_comm]; tauto
  have hli : LinearIndependent ℝ ![d, e] := by
    by_contra hc; exact hp (parallelTol_of_dependent ht hc)
  have hli' : LinearIndependent ℝ ![e, d] := by rwa [LinearIndependent.pair_symm_iff]
  refine ⟨?_, ?_, fun y h1 h2 => meet_unique hli ⟨h1, h2⟩ ⟨hx, hx'⟩⟩
  · rw [intersectLine_arr hn3 p d q e check ht hp
      (fun _ => isCoplanar_true_of_meet hli ⟨x, hx, hx'⟩ none (by simp))]
    congr 2
    exact meet_unique hli ⟨⟨_, rfl⟩, meetParam_spec hn3 hli ⟨x, hx, hx'⟩⟩ ⟨hx, hx'⟩
  · rw [intersectLine_arr hn3 q e p d check ht hp'
      (fun _ => isCoplanar_true_of_meet hli' ⟨x, hx', hx⟩ none (by simp))]
    congr 2
    exact meet_unique hli' ⟨⟨_, rfl⟩, meetParam_spec hn3 hli' ⟨x, hx', hx⟩⟩ ⟨hx', hx⟩

/-- C28: whatever is returned for lines that meet (in particular always in 2D) is their only common
point. -/
theorem C28_intersect_line_sound {p d q e : E n} {L M : Line ℝ}
    (hL : Line.new (arr p) (arr d) = .ok L) (hM : Line.new (arr q) (arr e) = .ok M)
    (check : Bool) {tol : Tol ℝ} (ht : tol.Nonneg) {l : List ℝ}
    (h : L.intersectLine M check tol = .ok l)
    (hmeet : n = 2 ∨ ∃ x, x ∈ lineSet p d ∧ x ∈ lineSet q e) :
    ∃ y : E n, l = arr y ∧ y ∈ lineSet p d ∧ y ∈ lineSet q e ∧
      ∀ z, z ∈ lineSet p d → z ∈ lineSet q e → z = y := by
  obtain ⟨hn, hd, rfl⟩ := Line.new_ok hL
  obtain ⟨-, he, rfl⟩ := Line.new_ok hM
  have hn3 : n ≤ 3 := by
    by_contra hc
    simp [Line.intersectLine, Line.dimension, show 3 < n by omega] at h
  have hp : ¬ ParallelTol tol d e := by
    intro hc
    simp [Line.intersectLine, Line.dimension, isParallel_arr ht, hc, show ¬ 3 < n by omega] at h
  have hli : LinearIndependent ℝ ![d, e] := by
    by_contra hc; exact hp (parallelTol_of_dependent ht hc)
  have hm : ∃ x, x ∈ lineSet p d ∧ x ∈ lineSet q e := by
    rcases hmeet with h2 | h2
    · rw [← meet_iff, ← coplanar_iff_meet hli, coplanar_iff_finrank_le_two]
      have := Submodule.finrank_le (vectorSpan ℝ ({x | x ∈ [p, p + d, q, q + e]} : Set (E n)))
      rw [finrank_euclideanSpace_fin] at this
      omega
    · exact h2
  rw [intersectLine_arr hn3 p d q e check ht hp
      (fun _ => isCoplanar_true_of_meet hli hm none (by simp))] at h
  obtain ⟨x, hx, hx'⟩ := hm
  have := meetParam_spec hn3 hli ⟨x, hx, hx'⟩
  exact ⟨_, (Except.ok.inj h).symm, ⟨_, rfl⟩, this, fun z h1 h2 => meet_unique hli ⟨h1, h2⟩ ⟨⟨_, rfl⟩, this⟩⟩

omit [LawfulNumpy] in
/-- C28: the error cases. -/
theorem C28_intersect_line_errors {m : ℕ} {p d : E n} {q e : E m} {L M : Line ℝ}
    (hL : Line.new (arr p) (arr d) = .ok L) (hM : Line.new (arr q) (arr e) = .ok M)
    (check : Bool) (tol : Tol ℝ) :
    (n ≠ m ∨ 3 < n ∨ Vec.isParallel tol (arr d) (arr e) = .ok true ∨
        (Vec.isParallel tol (arr d) (arr e) = .ok false ∧ check = true ∧
          L.isCoplanar none (.line M) = .ok false) →
      ∃ msg, L.intersectLine M check tol = .error (.valueError msg)) ∧
    (n = 1 → tol.Nonneg → ∃ msg, L.intersectLine M check tol = .error (.valueError msg)) := by
  obtain ⟨hn, hd, rfl⟩ := Line.new_ok hL
  obtain ⟨hm', he, rfl⟩ := Line.new_ok hM
  have main : (n ≠ m ∨ 3 < n ∨ Vec.isParallel tol (arr d) (arr e) = .ok true ∨
        (Vec.isParallel tol (arr d) (arr e) = .ok false ∧ check = true ∧
          Line.isCoplanar none ⟨arr p, arr d⟩ (.line ⟨arr q, arr e⟩) = .ok false) →
      ∃ msg, Line.intersectLine ⟨arr p, arr d⟩ ⟨arr q, arr e⟩ check tol = .error (.valueError msg)) := by
    intro h
    unfold Line.intersectLine Line.dimension
    simp only [length_arr]
    by_cases hnm : n ≠ m
    · exact ⟨_, if_pos hnm⟩
    · rw [if_neg hnm]
      by_cases h3 : n > 3 ∨ m > 3
      · exact ⟨_, if_pos h3⟩
      · rw [if_neg h3]
        rcases h with h | h | h | ⟨h1, rfl, h2⟩
        · exact absurd h hnm
        · exact absurd (Or.inl h) h3
        · exact ⟨_, by simp [h]; rfl⟩
        · exact ⟨_, by simp [h1, h2]; rfl⟩
  refine ⟨main, fun h1 ht => ?_⟩
  by_cases hnm : n = m
  · apply main
    right; right; left
    subst hnm
    subst h1
    rw [isParallel_arr ht]
    have : ParallelTol tol d e := by
      apply parallelTol_of_dependent ht
      unfold ExactParallel
      rw [LinearIndependent.pair_iff]
      intro hli
      have h0 : d 0 ≠ 0 := by intro h; apply hd; ext i; fin_cases i; simpa using h
      have := (hli (e 0) (-d 0) (by ext i; fin_cases i; simp; ring)).2
      simp [h0] at this
    simp [this]
  · exact main (Or.inl hnm)

omit [LawfulNumpy] in
/-- C29: without the coplanarity check the point returned for non-parallel lines (dimension 2 or 3) is the
point of the first line that is closest to the second line. -/
theorem C29_intersect_line_unchecked {p d q e : E n} {L M : Line ℝ} (hn3 : n ≤ 3)
    (hL : Line.new (arr p) (arr d) = .ok L) (hM : Line.new (arr q) (arr e) = .ok M)
    {tol : Tol ℝ} (ht : tol.Nonneg) (hpar : Vec.isParallel tol (arr d) (arr e) = .ok false) :
    ∃ x : E n, L.intersectLine M false tol = .ok (arr x) ∧ x ∈ lineSet p d ∧
      ∃ y ∈ lineSet q e, IsLeast (lineDistances p d q e) (dist x y) := by
  obtain ⟨hn, hd, rfl⟩ := Line.new_ok hL
  obtain ⟨-, he, rfl⟩ := Line.new_ok hM
  rw [isParallel_arr ht] at hpar
  have hp : ¬ ParallelTol tol d e := by simpa using hpar
  have hli : LinearIndependent ℝ ![d, e] := by
    by_contra hc; exact hp (parallelTol_of_dependent ht hc)
  obtain ⟨hN, hval, hle⟩ := closest_points hn3 (p := p) (q := q) hli
  have hy : q - ((inner ℝ (crossE (pad3 d) (pad3 (q - p))) (crossE (pad3 d) (pad3 e)) : ℝ) /
    ‖crossE (pad3 d) (pad3 e)‖ ^ 2) • e ∈ lineSet q e := ⟨-_, by rw [neg_smul, sub_eq_add_neg]⟩
  refine ⟨_, intersectLine_arr hn3 p d q e false ht hp (by simp), ⟨_, rfl⟩, _, hy, ?_, ?_⟩
  · exact ⟨_, ⟨_, rfl⟩, _, hy, rfl⟩
  · rintro r ⟨x, hx, y, hy, rfl⟩
    exact hle x hx y hy

example : Line.new (arr (vec2 0 0)) (arr (vec2 1 0)) = .ok ⟨arr (vec2 0 0), arr (vec2 1 0)⟩ ∧
    Line.new (arr (vec2 5 5)) (arr (vec2 0 1)) = .ok ⟨arr (vec2 5 5), arr (vec2 0 1)⟩ ∧
    Vec.isParallel Tol.default (arr (vec2 1 0)) (arr (vec2 0 1)) = .ok false ∧
    vec2 5 0 ∈ lineSet (vec2 0 0) (vec2 1 0) ∧ vec2 5 0 ∈ lineSet (vec2 5 5) (vec2 0 1) := by
  have h1 : vec2 1 0 ≠ 0 := by
    intro h; have := congrFun (congrArg WithLp.ofLp h) 0; simp [vec2] at this
  have h2 : vec2 0 1 ≠ 0 := by
    intro h; have := congrFun (congrArg WithLp.ofLp h) 1; simp [vec2] at this
  refine ⟨Line.new_arr _ h1, Line.new_arr _ h2, ?_, ⟨5, ?_⟩, ⟨-5, ?_⟩⟩
  · have : ¬ NearParallel (vec2 1 0) (vec2 0 1) := by
      rintro (h | h | h)
      · exact h1 h
      · exact h2 h
      · rw [cosE, inner2] at h; simp [vec2] at h; norm_num at h
    simp [this]
  · ext i; fin_cases i <;> simp [vec2]
  · ext i; fin_cases i <;> simp [vec2]

end

/-! ## C30 (lines) -/

open Classical in
/-- C30: `line.is_close` with the default tolerances. -/
theorem C30_line_is_close {p d q e : E n} {L M : Line ℝ}
    (hL : Line.new (arr p) (arr d) = .ok L) (hM : Line.new (arr q) (arr e) = .ok M) :
    L.isClose Tol.default (.line M) = .ok (decide (q ∈ lineSet p d ∧ NearParallel d e)) ∧
    (lineSet p d = lineSet q e → L.isClose Tol.default (.line M) = .ok true) ∧
    L.isClose Tol.default (.line L) = .ok true ∧
    (∀ o : Obj ℝ, (∀ l, o ≠ .line l) → ∀ tol, ∃ msg, L.isClose tol o = .error (.typeError msg)) := by
  obtain ⟨hn, hd, rfl⟩ := Line.new_ok hL
  obtain ⟨-, he, rfl⟩ := Line.new_ok hM
  have hval : ∀ q e : E n, Line.isClose Tol.default ⟨arr p, arr d⟩ (.line ⟨arr q, arr e⟩) =
      .ok (decide (q ∈ lineSet p d ∧ NearParallel d e)) := by
    intro q e
    simp [Line.isClose, Line.containsPoint_default_arr p q hd]
  have hsame : lineSet p d = lineSet q e → q ∈ lineSet p d ∧ NearParallel d e := by
    intro h
    have h1 : q ∈ lineSet p d := by rw [h]; exact ⟨0, by simp⟩
    have h2 : q + e ∈ lineSet p d := by rw [h]; exact ⟨1, by simp⟩
    refine ⟨h1, ?_⟩
    obtain ⟨a, ha⟩ := h1
    obtain ⟨b, hb⟩ := h2
    have : e = (b - a) • d := by
      rw [sub_smul, eq_sub_iff_add_eq]
      have : q + e = p + a • d + e := by rw [← ha]
      rw [this, add_assoc, add_right_inj] at hb
      rw [add_comm]; exact hb
    rw [this]; exact nearParallel_smul _
  refine ⟨hval q e, fun h => ?_, ?_, ?_⟩
  · rw [hval]; simp [hsame h]
  · rw [hval]
    have : p ∈ lineSet p d := ⟨0, by simp⟩
    have h2 : NearParallel d d := by simpa using nearParallel_smul (x := d) 1
    simp [this, h2]
  · intro o ho tol
    cases o with
    | line l => exact absurd rfl (ho l)
    | _ => exact ⟨_, rfl⟩

/-! ## C32 -/

theorem transformPoints_arr [NeZero n] (p : E n) {d : E n} (hd : d ≠ 0) {P : List (E n)} (hP : P ≠ []) :
    Line.transformPoints ⟨arr p, arr d⟩ (rows P) = .ok (P.map fun x => (inner ℝ (x - p) (‖d‖⁻¹ • d) : ℝ)) := by
  have h1 : (rows P).mapM (fun q => vsub q (arr p)) = .ok (P.map fun x => arr (x - p)) :=
    mapM_rows P _ (fun x => arr (x - p)) (by simp)
  have h2 : (P.map fun x => arr (x - p)).mapM (fun v => [arr (‖d‖⁻¹ • d)].mapM fun b => dot v b) =
      .ok (P.map fun x => [(inner ℝ (x - p) (‖d‖⁻¹ • d) : ℝ)]) :=
    mapM_map_ok _ _ _ _ (by intro x _; simp only [List.mapM_cons, dot_arr]; rfl)
  have h3 : checkRows [arr (‖d‖⁻¹ • d)] = .ok () := by simp [checkRows]
  simp only [Line.transformPoints, unit_arr hd, ok_bind, transformCoordinates, checkRows_rows hP, h1, h2, h3,
    pure_ok]
  congr 1
  clear hP h1 h2
  induction P with
  | nil => rfl
  | cons x P ih => simp [ih]

/-- C32: `transform_points` gives the signed coordinates along the unit direction; they do not depend on
the length of the direction and change sign with it. -/
theorem C32_transform_points {p d : E n} {L : Line ℝ} (hL : Line.new (arr p) (arr d) = .ok L)
    {P : List (E n)} (hP : P ≠ []) :
    ∃ ts : List ℝ, L.transformPoints (rows P) = .ok ts ∧
      List.Forall₂ (fun x t => L.projectPoint (arr x) = .ok (arr (p + t • ‖d‖⁻¹ • d))) P ts ∧
      (∀ (c : ℝ) (L' : Line ℝ), 0 < c → Line.new (arr p) (arr (c • d)) = .ok L' →
        L'.transformPoints (rows P) = .ok ts) ∧
      (∀ L' : Line ℝ, Line.new (arr p) (arr (-d)) = .ok L' →
        L'.transformPoints (rows P) = .ok (ts.map fun t => -t)) := by
  obtain ⟨hn, hd, rfl⟩ := Line.new_ok hL
  refine ⟨_, transformPoints_arr p hd hP, ?_, ?_, ?_⟩
  · rw [List.forall₂_map_right_iff]
    simp only [Line.projectPoint_arr, ← footE_unit p hd, add_comm _ p]
    simp
  · intro c L' hc hL'
    obtain ⟨-, hd', rfl⟩ := Line.new_ok hL'
    rw [transformPoints_arr p hd' hP]
    have : ‖c • d‖⁻¹ • c • d = ‖d‖⁻¹ • d := by
      rw [norm_smul, Real.norm_of_nonneg hc.le, smul_smul]; congr 1; field_simp
    rw [this]
  · intro L' hL'
    obtain ⟨-, hd', rfl⟩ := Line.new_ok hL'
    rw [transformPoints_arr p hd' hP]
    simp [Function.comp_def, real_inner_smul_right]

/-- C32: `transform_coordinates` with an orthonormal basis is inverted, on the affine subspace spanned by
the basis at the origin, by the linear combination of the basis, and is an isometry there. -/
theorem C32_transform_coordinates {k : ℕ} (hk : k ≠ 0) (o : E n) (b : Fin k → E n) (hb : Orthonormal ℝ b)
    {P : List (E n)} (hP : P ≠ []) :
    ∃ Q : List (E k), transformCoordinates (rows P) (arr o) (rows (List.ofFn b)) = .ok (rows Q) ∧
      List.Forall₂ (fun x q => (∀ i, q i = inner ℝ (x - o) (b i)) ∧
        (x - o ∈ Submodule.span ℝ (Set.range b) → x = o + ∑ i, q i • b i)) P Q ∧
      (∀ i j (hi : i < P.length) (hj : j < P.length) (hi' : i < Q.length) (hj' : j < Q.length),
        P[i] - o ∈ Submodule.span ℝ (Set.range b) → P[j] - o ∈ Submodule.span ℝ (Set.range b) →
        dist Q[i] Q[j] = dist P[i] P[j]) := by
  have h1 : (rows P).mapM (fun q => vsub q (arr o)) = .ok (P.map fun x => arr (x - o)) :=
    mapM_rows P _ (fun x => arr (x - o)) (by simp)
  have hbr : List.ofFn b ≠ [] := by
    intro h; have := congrArg List.length h; simp at this; exact hk this
  let f : E n → E k := fun x => WithLp.toLp 2 fun i => (inner ℝ (x - o) (b i) : ℝ)
  have h2 : (P.map fun x => arr (x - o)).mapM (fun v => (rows (List.ofFn b)).mapM fun b => dot v b) =
      .ok (P.map fun x => arr (f x)) := by
    apply mapM_map_ok
    intro x _
    rw [mapM_rows (List.ofFn b) _ (fun c => (inner ℝ (x - o) c : ℝ)) (by simp)]
    congr 1
    apply List.ext_getElem <;> simp [arr, f]
  have hspan : ∀ x, x - o ∈ Submodule.span ℝ (Set.range b) → x = o + ∑ i, f x i • b i := by
    intro x hx
    have h := hb.sum_inner_products_le (s := Finset.univ)
    obtain ⟨c, hc⟩ := (Submodule.mem_span_range_iff_exists_fun ℝ).mp hx
    have : ∀ i, f x i = c i := by
      intro i
      show (inner ℝ (x - o) (b i) : ℝ) = c i
      rw [← hc, hb.inner_left_fintype]; simp
    simp only [this, hc]
    abel
  refine ⟨P.map f, ?_, ?_, ?_⟩
  · simp only [transformCoordinates, checkRows_rows hP, checkRows_rows hbr, ok_bind, h1, h2]
    simp [rows]
  · rw [List.forall₂_map_right_iff, List.forall₂_same]
    intro x _
    exact ⟨fun i => rfl, hspan x⟩
  · intro i j hi hj hi' hj' h3 h4
    simp only [List.getElem_map]
    have e1 := hspan _ h3
    have e2 := hspan _ h4
    have e3 : P[i] - P[j] = ∑ l, (f P[i] l - f P[j] l) • b l := by
      conv_lhs => rw [e1, e2]
      simp only [sub_smul, Finset.sum_sub_distrib]; abel
    rw [dist_eq_norm, dist_eq_norm]
    have e4 : ‖P[i] - P[j]‖ ^ 2 = ‖f P[i] - f P[j]‖ ^ 2 := by
      rw [← real_inner_self_eq_norm_sq, e3, hb.inner_sum, EuclideanSpace.norm_sq_eq]
      refine Finset.sum_congr rfl fun l _ => ?_
      simp [pow_two]
    have := (pow_left_inj₀ (norm_nonneg _) (norm_nonneg _) two_ne_zero).mp e4
    exact this.symm

end SkSpatial
