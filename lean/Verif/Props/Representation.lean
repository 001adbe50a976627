import Verif.Props.Similarity3
/-!
# C102: results depend on the geometric set, not on the arguments that describe it

A line has many descriptions (any of its points, any multiple of the direction), likewise planes, cylinders and segments.
-/

namespace SkSpatial
open EuclideanGeometry

variable {n : ℕ}

theorem corresponds_eq {α : Type} {a b : Res α} (h : a = b) (h' : (∃ x, a = .ok x) ∨ ∃ msg, a = .error (.valueError msg)) :
    Corresponds (fun x y => y = x) a b := by
  subst h
  rcases h' with ⟨x, hx⟩ | h
  · exact corresponds_ok hx hx rfl
  · exact corresponds_error h h

theorem lineSet_rep {p d q e : E n} (he : e ≠ 0) (h : lineSet p d = lineSet q e) :
    ∃ t s : ℝ, s ≠ 0 ∧ q = p + t • d ∧ e = s • d := by
  obtain ⟨a, ha⟩ : q ∈ lineSet p d := by rw [h]; exact ⟨0, by simp⟩
  obtain ⟨b, hb⟩ : q + e ∈ lineSet p d := by rw [h]; exact ⟨1, by simp⟩
  have hs : e = (b - a) • d := by
    have : e = (q + e) - q := by abel
    rw [this, hb, ha, sub_smul]; abel
  refine ⟨a, b - a, ?_, ha, hs⟩
  intro h0
  rw [h0, zero_smul] at hs
  exact he hs

theorem planeSet_rep {p m q k : E n} (hm : m ≠ 0) (hk : k ≠ 0) (h : planeSet p m = planeSet q k) :
    ∃ s : ℝ, s ≠ 0 ∧ inner ℝ m (q - p) = (0 : ℝ) ∧ k = s • m := by
  have hself : ∀ a b : E n, a ∈ planeSet a b := by intro a b; simp [planeSet]
  have h1 : q ∈ planeSet p m := by rw [h]; exact hself _ _
  have hmn : ‖m‖ ≠ 0 := norm_ne_zero_iff.mpr hm
  obtain ⟨u, hu⟩ : ∃ u, u = k - (inner ℝ m k / ‖m‖ ^ 2) • m := ⟨_, rfl⟩
  have hum : (inner ℝ m u : ℝ) = 0 := by
    rw [hu, inner_sub_right, real_inner_smul_right, real_inner_self_eq_norm_sq]; field_simp; ring
  have h2 : p + u ∈ planeSet q k := by
    rw [← h, mem_planeSet, add_sub_cancel_left, hum]
  have h3 : p ∈ planeSet q k := by rw [← h]; exact hself _ _
  rw [mem_planeSet] at h2 h3
  rw [add_sub_right_comm, inner_add_right, h3, zero_add] at h2
  have hk' : k = u + (inner ℝ m k / ‖m‖ ^ 2) • m := by rw [hu]; abel
  have h4 : (inner ℝ u u : ℝ) = 0 := by
    rw [hk', inner_add_left, real_inner_smul_left, hum] at h2
    linarith
  have h5 : u = 0 := inner_self_eq_zero.mp h4
  rw [h5, zero_add] at hk'
  refine ⟨_, ?_, mem_planeSet.mp h1, hk'⟩
  intro h0
  rw [h0, zero_smul] at hk'
  exact hk hk'

theorem parallelTol_smul {tol : Tol ℝ} (h0 : tol.abs = 0) {s r : ℝ} (hs : s ≠ 0) (hr : r ≠ 0) (u v : E n) :
    ParallelTol tol (s • u) (r • v) ↔ ParallelTol tol u v := by
  have e : ∀ (s : ℝ), s ≠ 0 → ∀ u : E n, Close tol (‖s • u‖ ^ 2) 0 ↔ Close tol (‖u‖ ^ 2) 0 := by
    intro s hs u
    rw [norm_smul, mul_pow]
    exact close_mul_zero (pow_pos (norm_pos_iff.mpr hs) 2) h0 _
  rw [ParallelTol, ParallelTol, e s hs, e r hr, abs_cosE_smul_left hs, cosE_comm, abs_cosE_smul_left hr, cosE_comm]

theorem isParallel_smul [NeZero n] {tol : Tol ℝ} (h0 : tol.abs = 0) {s r : ℝ} (hs : s ≠ 0) (hr : r ≠ 0) (u v : E n) :
    Vec.isParallel tol (arr (s • u)) (arr (r • v)) = Vec.isParallel tol (arr u) (arr v) := by
  classical
  by_cases ht : tol.Nonneg
  · rw [isParallel_arr ht, isParallel_arr ht]
    simp only [parallelTol_smul h0 hs hr]
  · simp only [Vec.isParallel, new1D_arr, ok_bind, Vec.isZero, dot_arr, isclose_neg ht, error_bind]

theorem footE_rep {p d q e : E n} (hd : d ≠ 0) (he : e ≠ 0) (h : lineSet p d = lineSet q e) (x : E n) :
    footE q e x = footE p d x := by
  refine footE_unique p hd x _ (by rw [h]; exact footE_mem _ _ _) (le_antisymm ?_ ?_)
  · exact footE_le q he x _ (by rw [← h]; exact footE_mem _ _ _)
  · exact footE_le p hd x _ (by rw [h]; exact footE_mem _ _ _)

theorem pfootE_rep {p m q k : E n} (hm : m ≠ 0) (hk : k ≠ 0) (h : planeSet p m = planeSet q k) (x : E n) :
    pfootE q k x = pfootE p m x := by
  refine pfootE_unique p hm x _ (by rw [h]; exact pfootE_mem _ hk _) (le_antisymm ?_ ?_)
  · exact pfootE_le q hk x _ (by rw [← h]; exact pfootE_mem _ hm _)
  · exact pfootE_le p hm x _ (by rw [h]; exact pfootE_mem _ hk _)

/-- C102: two `Line` objects with the same set of points: projections, distances, containment (for every
tolerance) and sums of squares agree; so does `is_close` to any line. -/
theorem C102_line {p d q e : E n} {L M : Line ℝ} (hL : Line.new (arr p) (arr d) = .ok L)
    (hM : Line.new (arr q) (arr e) = .ok M) (h : lineSet p d = lineSet q e) :
    (∀ x : E n, M.projectPoint (arr x) = L.projectPoint (arr x) ∧ M.distancePoint (arr x) = L.distancePoint (arr x) ∧
      ∀ tol, M.containsPoint tol (arr x) = L.containsPoint tol (arr x)) ∧
    (∀ X : List (E n), X ≠ [] → M.projectPoints (rows X) = L.projectPoints (rows X) ∧
      M.distancePoints (rows X) = L.distancePoints (rows X) ∧ M.sumSquares (rows X) = L.sumSquares (rows X)) ∧
    (∀ (o f : E n) (N : Line ℝ), Line.new (arr o) (arr f) = .ok N → ∀ tol : Tol ℝ, tol.abs = 0 →
      M.isClose tol (.line N) = L.isClose tol (.line N)) := by
  obtain ⟨hn, hd, rfl⟩ := Line.new_ok hL
  obtain ⟨-, he, rfl⟩ := Line.new_ok hM
  have hf := footE_rep hd he h
  have hproj : ∀ x : E n, Line.projectPoint (⟨arr q, arr e⟩ : Line ℝ) (arr x) = Line.projectPoint ⟨arr p, arr d⟩ (arr x) := by
    intro x; rw [Line.projectPoint_arr, Line.projectPoint_arr, hf]
  have hdist : ∀ x : E n, Line.distancePoint (⟨arr q, arr e⟩ : Line ℝ) (arr x) = Line.distancePoint ⟨arr p, arr d⟩ (arr x) := by
    intro x; rw [Line.distancePoint_arr, Line.distancePoint_arr, hf]
  have hcon : ∀ x : E n, ∀ tol, Line.containsPoint tol (⟨arr q, arr e⟩ : Line ℝ) (arr x) =
      Line.containsPoint tol ⟨arr p, arr d⟩ (arr x) := by
    intro x tol; simp only [Line.containsPoint, containsPointFn, hdist]
  refine ⟨fun x => ⟨hproj x, hdist x, hcon x⟩, fun X hX => ?_, fun o f N hN tol h0 => ?_⟩
  · obtain ⟨Q, ds, h1, h2, h3, h4, h5⟩ := C25_batch hL hX
    obtain ⟨Q', ds', h1', h2', h3', h4', h5'⟩ := C25_batch hM hX
    have eQ : Q' = Q := by
      have key : ∀ X Q Q' : List (E n), List.Forall₂ (fun x q => Line.projectPoint (⟨arr p, arr d⟩ : Line ℝ) (arr x) = .ok (arr q)) X Q →
          List.Forall₂ (fun x q' => Line.projectPoint (⟨arr q, arr e⟩ : Line ℝ) (arr x) = .ok (arr q')) X Q' → Q' = Q := by
        intro X Q Q' hQ
        induction hQ generalizing Q' with
        | nil => intro h; cases h; rfl
        | cons ha _ ih =>
          intro h
          cases h with
          | cons hb ht =>
            rw [hproj, ha] at hb
            rw [ih _ ht, arr_injective (Except.ok.inj hb)]
      exact key X Q Q' h3 h3'
    have eD : ds' = ds := by
      have key : ∀ (X : List (E n)) (D D' : List ℝ), List.Forall₂ (fun x r => Line.distancePoint (⟨arr p, arr d⟩ : Line ℝ) (arr x) = .ok r) X D →
          List.Forall₂ (fun x r => Line.distancePoint (⟨arr q, arr e⟩ : Line ℝ) (arr x) = .ok r) X D' → D' = D := by
        intro X D D' hQ
        induction hQ generalizing D' with
        | nil => intro h; cases h; rfl
        | cons ha _ ih =>
          intro h
          cases h with
          | cons hb ht =>
            rw [hdist, ha] at hb
            rw [ih _ ht, Except.ok.inj hb]
      exact key X ds ds' h4 h4'
    rw [h1, h1', h2, h2', h5, h5', eQ, eD]
    exact ⟨rfl, rfl, rfl⟩
  · obtain ⟨-, hf', rfl⟩ := Line.new_ok hN
    obtain ⟨t, s, hs, -, rfl⟩ := lineSet_rep he h
    have := isParallel_smul h0 hs one_ne_zero d f
    rw [one_smul] at this
    simp only [Line.isClose, hcon, this]

/-- C102: the side of a line in the plane depends on the set and the sense of the direction. -/
theorem C102_side_point {p d q e : E 2} {L M : Line ℝ} (hL : Line.new (arr p) (arr d) = .ok L)
    (hM : Line.new (arr q) (arr e) = .ok M) (h : lineSet p d = lineSet q e) (x : E 2) :
    ∃ s s' : ℤ, L.sidePoint (arr x) = .ok s ∧ M.sidePoint (arr x) = .ok s' ∧
      (0 < (inner ℝ d e : ℝ) → s' = s) ∧ ((inner ℝ d e : ℝ) < 0 → s' = -s) ∧ (inner ℝ d e : ℝ) ≠ 0 := by
  obtain ⟨-, hd, -⟩ := Line.new_ok hL
  obtain ⟨-, he, -⟩ := Line.new_ok hM
  obtain ⟨s, hs, h0, h1, h2, -⟩ := C26_side_point hL x
  obtain ⟨s', hs', h0', h1', h2', -⟩ := C26_side_point hM x
  obtain ⟨t, r, hr, rfl, rfl⟩ := lineSet_rep he h
  have hsgn : s = 0 ∨ s = 1 ∨ s = -1 := by
    rcases lt_trichotomy (d 1 * (x - p) 0 - d 0 * (x - p) 1) 0 with g | g | g
    · exact .inr (.inr (h2.mpr g))
    · left
      obtain ⟨σ, hσ, hσ1, -⟩ := sideVector_arr d (x - p)
      have : L.sidePoint (arr x) = .ok σ := by
        obtain ⟨-, -, rfl⟩ := Line.new_ok hL
        simpa [Line.sidePoint] using hσ
      rw [hs] at this
      have hc : (s : ℝ) = 0 := by
        rw [Except.ok.inj this]
        have g' : d 1 * (x - p).ofLp 0 - d 0 * (x - p).ofLp 1 = 0 := g
        rw [hσ1, g']; simp
      exact_mod_cast hc
    · exact .inr (.inl (h1.mpr g))
  have hsgn' : s' = 0 ↔ s = 0 := by rw [h0, h0', h]
  have e1 : (r • d) 1 * (x - (p + t • d)) 0 - (r • d) 0 * (x - (p + t • d)) 1 = r * (d 1 * (x - p) 0 - d 0 * (x - p) 1) := by
    simp; ring
  rw [e1] at h1' h2'
  have hin : (inner ℝ d (r • d) : ℝ) = r * ‖d‖ ^ 2 := by rw [real_inner_smul_right, real_inner_self_eq_norm_sq]
  have hd2 : 0 < ‖d‖ ^ 2 := pow_pos (norm_pos_iff.mpr hd) 2
  refine ⟨s, s', hs, hs', fun hp => ?_, fun hp => ?_, ?_⟩
  · rw [hin] at hp
    have hr0 : 0 < r := (pos_iff_pos_of_mul_pos hp).mpr hd2
    rw [mul_pos_iff_of_pos_left hr0] at h1'
    have h2'' : s' = -1 ↔ d 1 * (x - p) 0 - d 0 * (x - p) 1 < 0 := by
      rw [h2', mul_neg_iff]
      constructor
      · rintro (g | g)
        · exact g.2
        · linarith [g.1]
      · intro g; exact .inl ⟨hr0, g⟩
    rcases hsgn with g | g | g
    · rw [g, hsgn'.mpr g]
    · rw [g]; exact h1'.mpr (h1.mp g)
    · rw [g]; exact h2''.mpr (h2.mp g)
  · rw [hin] at hp
    have hr0 : r < 0 := by
      by_contra hc
      have := mul_nonneg (not_lt.mp hc) hd2.le
      linarith
    rcases hsgn with g | g | g
    · rw [g, hsgn'.mpr g]; rfl
    · rw [g]; exact h2'.mpr (mul_neg_of_neg_of_pos hr0 (h1.mp g))
    · rw [g]; exact h1'.mpr (mul_pos_of_neg_of_neg hr0 (h2.mp g))
  · rw [hin]; exact mul_ne_zero hr hd2.ne'

theorem meet_rep (hn : n ≤ 3) (p q : E n) {d e : E n} (hli : LinearIndependent ℝ ![d, e]) (t u : ℝ) {s r : ℝ} (hs : s ≠ 0) (hr : r ≠ 0) :
    p + t • d + meetParam (p + t • d) (s • d) (q + u • e) (r • e) • s • d = p + meetParam p d q e • d := by
  have hD : ‖d‖ ^ 2 * ‖e‖ ^ 2 - (inner ℝ d e : ℝ) ^ 2 ≠ 0 := by
    have h1 := (closest_points hn (p := p) (q := q) hli).1
    have h2 := crossE_norm_sq (pad3 d) (pad3 e)
    rw [norm_pad3 hn, norm_pad3 hn, inner_pad3 hn] at h2
    rw [← h2]
    exact ne_of_gt (by positivity)
  have key : t + meetParam (p + t • d) (s • d) (q + u • e) (r • e) * s = meetParam p d q e := by
    rw [meetParam_eq hn, meetParam_eq hn]
    have e1 : (inner ℝ (q + u • e - (p + t • d)) (s • d) : ℝ) = s * (inner ℝ (q - p) d + u * inner ℝ d e - t * ‖d‖ ^ 2) := by
      rw [real_inner_smul_right, show q + u • e - (p + t • d) = (q - p) + u • e - t • d by abel, inner_sub_left, inner_add_left,
        real_inner_smul_left, real_inner_smul_left, real_inner_self_eq_norm_sq, real_inner_comm d e]
    have e2 : (inner ℝ (q + u • e - (p + t • d)) (r • e) : ℝ) = r * (inner ℝ (q - p) e + u * ‖e‖ ^ 2 - t * inner ℝ d e) := by
      rw [real_inner_smul_right, show q + u • e - (p + t • d) = (q - p) + u • e - t • d by abel, inner_sub_left, inner_add_left,
        real_inner_smul_left, real_inner_smul_left, real_inner_self_eq_norm_sq]
    have e3 : (inner ℝ (s • d) (r • e) : ℝ) = s * r * inner ℝ d e := by
      rw [real_inner_smul_right, real_inner_smul_left]; ring
    have e4 : ∀ (a : ℝ) (v : E n), ‖a • v‖ ^ 2 = a ^ 2 * ‖v‖ ^ 2 := by
      intro a v; rw [norm_smul, mul_pow, Real.norm_eq_abs, sq_abs]
    rw [e1, e2, e3, e4, e4]
    obtain ⟨A, hA⟩ : ∃ A : ℝ, A = inner ℝ (q - p) d := ⟨_, rfl⟩
    obtain ⟨B, hB⟩ : ∃ A : ℝ, A = inner ℝ (q - p) e := ⟨_, rfl⟩
    obtain ⟨G, hG⟩ : ∃ A : ℝ, A = inner ℝ d e := ⟨_, rfl⟩
    obtain ⟨X, hX⟩ : ∃ A : ℝ, A = ‖d‖ ^ 2 := ⟨_, rfl⟩
    obtain ⟨Y, hY⟩ : ∃ A : ℝ, A = ‖e‖ ^ 2 := ⟨_, rfl⟩
    rw [← hG, ← hX, ← hY] at hD
    rw [← hA, ← hB, ← hG, ← hX, ← hY]
    have hD' : s ^ 2 * X * (r ^ 2 * Y) - (s * r * G) ^ 2 = s ^ 2 * r ^ 2 * (X * Y - G ^ 2) := by ring
    rw [hD']
    field_simp
    ring
  rw [add_assoc, smul_smul, ← add_smul, key]

/-- C102: intersecting two lines, however they are described: without the coplanarity check the same point or the
same exception; with the check the same point whenever both calls return, and the same outcome if the lines
meet. -/
theorem C102_intersect_line [NumpyExt ℝ] [LawfulNumpy] {p d q e p' d' q' e' : E n} {L M L' M' : Line ℝ}
    (hL : Line.new (arr p) (arr d) = .ok L) (hM : Line.new (arr q) (arr e) = .ok M)
    (hL' : Line.new (arr p') (arr d') = .ok L') (hM' : Line.new (arr q') (arr e') = .ok M')
    (h : lineSet p d = lineSet p' d') (h2 : lineSet q e = lineSet q' e') {tol : Tol ℝ} (ht : tol.Nonneg) (h0 : tol.abs = 0) :
    Corresponds (fun x y => y = x) (L.intersectLine M false tol) (L'.intersectLine M' false tol) ∧
    (∀ x y, L.intersectLine M true tol = .ok x → L'.intersectLine M' true tol = .ok y → y = x) ∧
    ((∃ x, x ∈ lineSet p d ∧ x ∈ lineSet q e) →
      Corresponds (fun x y => y = x) (L.intersectLine M true tol) (L'.intersectLine M' true tol)) := by
  obtain ⟨hn, hd, -⟩ := Line.new_ok hL
  obtain ⟨-, he, -⟩ := Line.new_ok hM
  obtain ⟨-, hd', -⟩ := Line.new_ok hL'
  obtain ⟨-, he', -⟩ := Line.new_ok hM'
  have Er := fun check => C28_intersect_line_errors hL hM check tol
  have Er' := fun check => C28_intersect_line_errors hL' hM' check tol
  by_cases hn3 : 3 < n
  · have b := fun check => (Er check).1 (.inr (.inl hn3))
    have b' := fun check => (Er' check).1 (.inr (.inl hn3))
    refine ⟨corresponds_error (b _) (b' _), fun x y hx => ?_, fun _ => corresponds_error (b _) (b' _)⟩
    obtain ⟨m, hm⟩ := b true
    rw [hm] at hx; cases hx
  have hn3 : n ≤ 3 := by omega
  obtain ⟨t, s, hs, rfl, rfl⟩ := lineSet_rep hd' h
  obtain ⟨u, r, hr, rfl, rfl⟩ := lineSet_rep he' h2
  have hpar' := parallelTol_smul h0 hs hr d e
  classical
  by_cases hpar : ParallelTol tol d e
  · have b := fun check => (Er check).1 (.inr (.inr (.inl (by rw [isParallel_arr ht]; simp [hpar]))))
    have b' := fun check => (Er' check).1 (.inr (.inr (.inl (by rw [isParallel_arr ht]; simp [hpar', hpar]))))
    refine ⟨corresponds_error (b _) (b' _), fun x y hx => ?_, fun _ => corresponds_error (b _) (b' _)⟩
    obtain ⟨m, hm⟩ := b true
    rw [hm] at hx; cases hx
  have hpar2 : ¬ ParallelTol tol (s • d) (r • e) := fun h => hpar (hpar'.mp h)
  have hli := not_dependent_of_not_parallelTol ht hpar
  have hpf : Vec.isParallel tol (arr d) (arr e) = .ok false := by rw [isParallel_arr ht]; simp [hpar]
  have hpf' : Vec.isParallel tol (arr (s • d)) (arr (r • e)) = .ok false := by rw [isParallel_arr ht]; simp [hpar2]
  have hval := meet_rep hn3 p q hli t u hs hr
  have key : ∀ (p d q e : E n), ¬ ParallelTol tol d e → ∀ l, Line.intersectLine ⟨arr p, arr d⟩ ⟨arr q, arr e⟩ true tol = .ok l →
      l = arr (p + meetParam p d q e • d) := by
    intro p d q e hpar l hl
    have h3 : ¬ (3 < n) := by omega
    obtain ⟨b0, b1, b2, -, -, hco, -⟩ := C22_predicates (P := [p, p + d, q, q + e]) (by simp) none (by simp)
    rw [← Line.isCoplanar_arr none p d q e] at hco
    cases b2 with
    | true =>
      rw [intersectLine_arr hn3 p d q e true ht hpar (fun _ => hco)] at hl
      exact (Except.ok.inj hl).symm
    | false =>
      simp [Line.intersectLine, Line.dimension, isParallel_arr ht, hpar, h3, hco] at hl
  refine ⟨?_, ?_, ?_⟩
  · obtain ⟨-, -, rfl⟩ := Line.new_ok hL
    obtain ⟨-, -, rfl⟩ := Line.new_ok hM
    obtain ⟨-, -, rfl⟩ := Line.new_ok hL'
    obtain ⟨-, -, rfl⟩ := Line.new_ok hM'
    refine corresponds_ok (intersectLine_arr hn3 _ _ _ _ false ht hpar (by simp))
      (intersectLine_arr hn3 _ _ _ _ false ht hpar2 (by simp)) ?_
    rw [hval]
  · intro x y hx hy
    obtain ⟨-, -, rfl⟩ := Line.new_ok hL
    obtain ⟨-, -, rfl⟩ := Line.new_ok hM
    obtain ⟨-, -, rfl⟩ := Line.new_ok hL'
    obtain ⟨-, -, rfl⟩ := Line.new_ok hM'
    rw [key _ _ _ _ hpar x hx, key _ _ _ _ hpar2 y hy, hval]
  · rintro ⟨x, hx, hx'⟩
    exact corresponds_ok (C28_intersect_line_complete hn3 hL hM hx hx' true ht hpf).1
      (C28_intersect_line_complete hn3 hL' hM' (by rwa [← h]) (by rwa [← h2]) true ht hpf').1 rfl

theorem nearParallel_smul_iff {s r : ℝ} (hs : s ≠ 0) (hr : r ≠ 0) (u v : E n) :
    NearParallel (s • u) (r • v) ↔ NearParallel u v := by
  rw [NearParallel, NearParallel, abs_cosE_smul_left hs, cosE_comm, abs_cosE_smul_left hr, cosE_comm]
  simp [hs, hr]

/-- C102: the distance of two lines, however they are described, if they are exactly parallel, or meet, or lie in a
plane, or are not accepted as parallel nor (in either description) as coplanar. -/
theorem C102_distance_line [NumpyExt ℝ] [LawfulNumpy] {p d q e p' d' q' e' : E n} {L M L' M' : Line ℝ} (hn3 : n ≤ 3)
    (hL : Line.new (arr p) (arr d) = .ok L) (hM : Line.new (arr q) (arr e) = .ok M)
    (hL' : Line.new (arr p') (arr d') = .ok L') (hM' : Line.new (arr q') (arr e') = .ok M')
    (h : lineSet p d = lineSet p' d') (h2 : lineSet q e = lineSet q' e')
    (hcase : ExactParallel d e ∨ (¬ NearParallel d e ∧ ((∃ x, x ∈ lineSet p d ∧ x ∈ lineSet q e) ∨ n ≤ 2 ∨
      (L.isCoplanar none (.line M) = .ok false ∧ L'.isCoplanar none (.line M') = .ok false)))) :
    ∃ r, L.distanceLine M = .ok r ∧ L'.distanceLine M' = .ok r := by
  obtain ⟨-, hd', -⟩ := Line.new_ok hL'
  obtain ⟨-, he', -⟩ := Line.new_ok hM'
  have hset : lineDistances p' d' q' e' = lineDistances p d q e := by
    simp only [lineDistances, h, h2]
  obtain ⟨t, s, hs, hp', hds⟩ := lineSet_rep hd' h
  obtain ⟨u, r, hr, hq', hes⟩ := lineSet_rep he' h2
  rcases hcase with hc | ⟨hnp, hc⟩
  · have hc' : ExactParallel d' e' := by
      rw [hds, hes]
      intro hli
      apply hc
      rw [LinearIndependent.pair_iff] at hli ⊢
      intro a b hab
      have := hli (a / s) (b / r) (by rw [smul_smul, smul_smul, div_mul_cancel₀ _ hs, div_mul_cancel₀ _ hr, hab])
      simpa [hs, hr] using this
    obtain ⟨x, h1, h3, -⟩ := C27_distance_line_parallel hL hM hc
    obtain ⟨x', h1', h3', -⟩ := C27_distance_line_parallel hL' hM' hc'
    rw [hset] at h3'
    exact ⟨x, h1, by rw [h1', h3'.unique h3]⟩
  · have hnp' : ¬ NearParallel d' e' := by rw [hds, hes, nearParallel_smul_iff hs hr]; exact hnp
    obtain ⟨x, h1, -, -, h3⟩ := C27_distance_line_skew hn3 hL hM hnp
    obtain ⟨x', h1', -, -, h3'⟩ := C27_distance_line_skew hn3 hL' hM' hnp'
    have a := h3 (by
      rcases hc with g | g | g
      · exact .inr (.inl g)
      · exact .inr (.inr g)
      · exact .inl g.1)
    have a' := h3' (by
      rcases hc with g | g | g
      · exact .inr (.inl (by rw [← h, ← h2]; exact g))
      · exact .inr (.inr g)
      · exact .inl g.2)
    rw [hset] at a'
    exact ⟨x, h1, by rw [h1', a'.unique a]⟩

end SkSpatial
