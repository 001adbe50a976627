import Verif.Spec.Geometry
import Verif.Props.Triangle
import Verif.Props.Line
/-! # C59: altitudes and orthocenter -/

namespace SkSpatial
open EuclideanGeometry

variable {n : ℕ}

theorem foot_ne {a b c : E n} (h : ¬ Collinear ℝ ({a, b, c} : Set (E n))) : footE b (c - b) a ≠ a := by
  intro he
  obtain ⟨t, ht⟩ := footE_mem b (c - b) a
  rw [he] at ht
  apply h
  rw [collinear_iff_exists_forall_eq_smul_vadd]
  refine ⟨b, c - b, ?_⟩
  rintro p (rfl | rfl | rfl)
  · exact ⟨t, by rw [vadd_eq_add, add_comm]; exact ht⟩
  · exact ⟨0, by simp⟩
  · exact ⟨1, by simp⟩

/-- The altitude through `a`, as a set: the points of the plane of the triangle seen from `a` perpendicular
to the opposite side. -/
theorem altitude_set {a b c : E n} (h : ¬ Collinear ℝ ({a, b, c} : Set (E n))) (x : E n) :
    x ∈ lineSet a (footE b (c - b) a - a) ↔ InPlaneOf a b c x ∧ inner ℝ (x - a) (c - b) = (0 : ℝ) := by
  have hcb : c - b ≠ 0 := by
    intro e; rw [sub_eq_zero] at e; subst e; apply h; simp [collinear_pair]
  have hperp : inner ℝ (footE b (c - b) a - a) (c - b) = (0 : ℝ) := by
    have := footE_perp b hcb a
    rw [← neg_sub, inner_neg_left, this, neg_zero]
  obtain ⟨t, ht⟩ := footE_mem b (c - b) a
  constructor
  · rintro ⟨s, rfl⟩
    refine ⟨⟨1 - s, s * (1 - t), s * t, by ring, ?_⟩, ?_⟩
    · rw [ht]; module
    · rw [add_sub_cancel_left, real_inner_smul_left, hperp, mul_zero]
  · rintro ⟨⟨u, v, w, huvw, rfl⟩, hin⟩
    refine ⟨v + w, ?_⟩
    have hu : u = 1 - v - w := by linarith
    subst hu
    have e : (1 - v - w) • a + v • b + w • c - (a + (v + w) • (footE b (c - b) a - a)) =
        (w - (v + w) * t) • (c - b) := by
      rw [ht]; module
    have e0 : (w - (v + w) * t) * inner ℝ (c - b) (c - b) = (0 : ℝ) := by
      rw [← real_inner_smul_left, ← e,
        show (1 - v - w) • a + v • b + w • c - (a + (v + w) • (footE b (c - b) a - a)) =
          ((1 - v - w) • a + v • b + w • c - a) - (v + w) • (footE b (c - b) a - a) by abel,
        inner_sub_left, real_inner_smul_left, hin, hperp, mul_zero, sub_zero]
    rcases mul_eq_zero.mp e0 with e1 | e1
    · rw [e1, zero_smul, sub_eq_zero] at e; exact e
    · exact absurd (inner_self_eq_zero.mp e1) hcb

theorem InPlaneOf.perm1 {a b c x : E n} : InPlaneOf b c a x ↔ InPlaneOf a b c x := by
  constructor
  · rintro ⟨u, v, w, h, rfl⟩; exact ⟨w, u, v, by linarith, by abel⟩
  · rintro ⟨u, v, w, h, rfl⟩; exact ⟨v, w, u, by linarith, by abel⟩

theorem collinear_perm1 {a b c : E n} : Collinear ℝ ({b, c, a} : Set (E n)) ↔ Collinear ℝ ({a, b, c} : Set (E n)) := by
  rw [Set.pair_comm c a, Set.insert_comm]

theorem ortho_unique {a b c x y : E n}
    (hx : InPlaneOf a b c x) (hy : InPlaneOf a b c y)
    (x1 : inner ℝ (x - a) (c - b) = (0 : ℝ)) (x2 : inner ℝ (x - b) (a - c) = (0 : ℝ))
    (y1 : inner ℝ (y - a) (c - b) = (0 : ℝ)) (y2 : inner ℝ (y - b) (a - c) = (0 : ℝ)) : x = y := by
  obtain ⟨u, v, w, h1, rfl⟩ := hx
  obtain ⟨u', v', w', h2, rfl⟩ := hy
  rw [← sub_eq_zero, ← norm_eq_zero, ← sq_eq_zero_iff, ← real_inner_self_eq_norm_sq]
  obtain ⟨d, hd⟩ : ∃ d, d = u • a + v • b + w • c - (u' • a + v' • b + w' • c) := ⟨_, rfl⟩
  rw [← hd]
  have e : d = (w - w') • (c - b) + (u - u') • (a - b) := by
    rw [hd]
    have : v - v' = - (w - w') - (u - u') := by linarith
    have : v = v' - (w - w') - (u - u') := by linarith
    rw [this]; module
  have d1 : inner ℝ d (c - b) = (0 : ℝ) := by
    rw [hd, show ∀ p q : E n, p - q = (p - a) - (q - a) from fun p q => by abel, inner_sub_left, x1, y1, sub_zero]
  have d2 : inner ℝ d (a - c) = (0 : ℝ) := by
    rw [hd, show ∀ p q : E n, p - q = (p - b) - (q - b) from fun p q => by abel, inner_sub_left, x2, y2, sub_zero]
  have d3 : inner ℝ d (a - b) = (0 : ℝ) := by
    rw [show a - b = (a - c) + (c - b) by abel, inner_add_right, d1, d2, add_zero]
  nth_rw 2 [e]
  rw [inner_add_right, real_inner_smul_right, real_inner_smul_right, d1, d3]; simp

theorem ortho_exists {a b c : E n} (h : ¬ Collinear ℝ ({a, b, c} : Set (E n))) :
    ∃ x, InPlaneOf a b c x ∧ inner ℝ (x - a) (c - b) = (0 : ℝ) ∧ inner ℝ (x - b) (a - c) = (0 : ℝ) ∧
      inner ℝ (x - c) (b - a) = (0 : ℝ) := by
  have hD : ‖b - a‖ ^ 2 * ‖c - a‖ ^ 2 - (inner ℝ (b - a) (c - a) : ℝ) ^ 2 ≠ 0 := by
    intro hD
    apply h
    rw [collinear_iff_dependent, LinearIndependent.pair_iff]
    intro hli
    obtain ⟨u, hu⟩ : ∃ u, u = b - a := ⟨_, rfl⟩
    obtain ⟨v, hv⟩ : ∃ v, v = c - a := ⟨_, rfl⟩
    rw [← hu, ← hv] at hD hli
    have hw : (-inner ℝ u v : ℝ) • u + (‖u‖ ^ 2) • v = 0 := by
      rw [← norm_eq_zero, ← sq_eq_zero_iff, ← real_inner_self_eq_norm_sq]
      simp only [inner_add_left, inner_add_right, real_inner_smul_left, real_inner_smul_right,
        real_inner_comm u v]
      rw [real_inner_self_eq_norm_sq, real_inner_self_eq_norm_sq]
      linear_combination ‖u‖ ^ 2 * hD
    have := (hli _ _ hw).2
    rw [sq_eq_zero_iff, norm_eq_zero] at this
    have h1 := (hli 1 0 (by simp [this])).1
    exact one_ne_zero h1
  obtain ⟨u, hu⟩ : ∃ u, u = b - a := ⟨_, rfl⟩
  obtain ⟨v, hv⟩ : ∃ v, v = c - a := ⟨_, rfl⟩
  rw [← hu, ← hv] at hD
  have hb : b = a + u := by rw [hu]; abel
  have hc : c = a + v := by rw [hv]; abel
  subst hb hc
  obtain ⟨g, hg⟩ : ∃ g : ℝ, g = inner ℝ u v := ⟨_, rfl⟩
  obtain ⟨p, hp⟩ : ∃ p : ℝ, p = ‖u‖ ^ 2 := ⟨_, rfl⟩
  obtain ⟨q, hq⟩ : ∃ q : ℝ, q = ‖v‖ ^ 2 := ⟨_, rfl⟩
  rw [← hg, ← hp, ← hq] at hD
  obtain ⟨α, hα⟩ : ∃ α : ℝ, α = g * (q - g) / (p * q - g ^ 2) := ⟨_, rfl⟩
  obtain ⟨β, hβ⟩ : ∃ β : ℝ, β = g * (p - g) / (p * q - g ^ 2) := ⟨_, rfl⟩
  have k1 : α * g + β * q = g := by rw [hα, hβ, div_mul_eq_mul_div, div_mul_eq_mul_div, ← add_div, div_eq_iff hD]; ring
  have k2 : α * p + β * g = g := by rw [hα, hβ, div_mul_eq_mul_div, div_mul_eq_mul_div, ← add_div, div_eq_iff hD]; ring
  refine ⟨a + α • u + β • v, ⟨1 - α - β, α, β, by ring, by module⟩, ?_, ?_, ?_⟩
  · rw [show a + α • u + β • v - a = α • u + β • v by abel, show a + v - (a + u) = v - u by abel]
    simp only [inner_add_left, inner_sub_right, real_inner_smul_left, real_inner_self_eq_norm_sq, ← hp, ← hq,
      real_inner_comm u v, ← hg]
    linarith
  · rw [show a + α • u + β • v - (a + u) = (α - 1) • u + β • v by module, show a - (a + v) = - v by abel]
    simp only [inner_add_left, inner_neg_right, real_inner_smul_left, real_inner_self_eq_norm_sq, ← hp, ← hq, ← hg]
    linarith
  · rw [show a + α • u + β • v - (a + v) = α • u + (β - 1) • v by module, show a + u - a = u by abel]
    simp only [inner_add_left, real_inner_smul_left, real_inner_self_eq_norm_sq, ← hp]
    rw [real_inner_comm, ← hg]; linarith

variable [NumpyExt ℝ] [LawfulNumpy]

omit [NumpyExt ℝ] [LawfulNumpy] in
theorem Triangle.altitude_arr [NeZero n] {a b c : E n} (h : ¬ Collinear ℝ ({a, b, c} : Set (E n))) :
    (Line.fromPoints (arr b) (arr c) >>= fun l => Line.projectPoint l (arr a) >>= fun q =>
      Line.fromPoints (arr a) q) = .ok ⟨arr a, arr (footE b (c - b) a - a)⟩ := by
  have hcb : b ≠ c := by
    rintro rfl; apply h; simp [collinear_pair]
  rw [fromPoints_line hcb, ok_bind, Line.projectPoint_arr, ok_bind, fromPoints_line (foot_ne h).symm]

/-- C59: the altitude through a vertex is the line through that vertex and a point of the opposite side line,
perpendicular to that side; as a set it consists of all points `x` of the triangle's plane with `x - vertex`
perpendicular to the side. -/
theorem C59_altitude {a b c : E n} {T : Triangle ℝ} (h : Triangle.new (arr a) (arr b) (arr c) = .ok T) :
    ∃ dA dB dC : E n, dA ≠ 0 ∧ dB ≠ 0 ∧ dC ≠ 0 ∧
      T.altitude "A" = Line.new (arr a) (arr dA) ∧ T.altitude "B" = Line.new (arr b) (arr dB) ∧
      T.altitude "C" = Line.new (arr c) (arr dC) ∧
      (∃ LA LB LC, T.altitude "A" = .ok LA ∧ T.altitude "B" = .ok LB ∧ T.altitude "C" = .ok LC) ∧
      (a + dA ∈ lineSet b (c - b) ∧ inner ℝ dA (c - b) = (0 : ℝ)) ∧
      (b + dB ∈ lineSet c (a - c) ∧ inner ℝ dB (a - c) = (0 : ℝ)) ∧
      (c + dC ∈ lineSet a (b - a) ∧ inner ℝ dC (b - a) = (0 : ℝ)) ∧
      (∀ x, x ∈ lineSet a dA ↔ InPlaneOf a b c x ∧ inner ℝ (x - a) (c - b) = (0 : ℝ)) ∧
      (∀ x, x ∈ lineSet b dB ↔ InPlaneOf a b c x ∧ inner ℝ (x - b) (a - c) = (0 : ℝ)) ∧
      (∀ x, x ∈ lineSet c dC ↔ InPlaneOf a b c x ∧ inner ℝ (x - c) (b - a) = (0 : ℝ)) := by
  obtain ⟨hn, rfl, hcol, hab, hbc, hac⟩ := Triangle.facts h
  have hB : ¬ Collinear ℝ ({b, c, a} : Set (E n)) := by rwa [collinear_perm1]
  have hC : ¬ Collinear ℝ ({c, a, b} : Set (E n)) := by rwa [collinear_perm1, collinear_perm1]
  have nA := sub_ne_zero.mpr (foot_ne hcol)
  have nB := sub_ne_zero.mpr (foot_ne hB)
  have nC := sub_ne_zero.mpr (foot_ne hC)
  have eA : Triangle.altitude ⟨arr a, arr b, arr c⟩ "A" = .ok ⟨arr a, arr (footE b (c - b) a - a)⟩ := by
    rw [← Triangle.altitude_arr hcol]; rfl
  have eB : Triangle.altitude ⟨arr a, arr b, arr c⟩ "B" = .ok ⟨arr b, arr (footE c (a - c) b - b)⟩ := by
    rw [← Triangle.altitude_arr hB]; rfl
  have eC : Triangle.altitude ⟨arr a, arr b, arr c⟩ "C" = .ok ⟨arr c, arr (footE a (b - a) c - c)⟩ := by
    rw [← Triangle.altitude_arr hC]; rfl
  have perp : ∀ p q r : E n, q ≠ r → inner ℝ (footE q (r - q) p - p) (r - q) = (0 : ℝ) := by
    intro p q r hqr
    have := footE_perp q (sub_ne_zero.mpr hqr.symm) p
    rw [← neg_sub, inner_neg_left, this, neg_zero]
  refine ⟨_, _, _, nA, nB, nC, by rw [eA, Line.new_arr _ nA], by rw [eB, Line.new_arr _ nB],
    by rw [eC, Line.new_arr _ nC], ⟨_, _, _, eA, eB, eC⟩, ⟨?_, perp _ _ _ hbc⟩, ⟨?_, perp _ _ _ hac.symm⟩,
    ⟨?_, perp _ _ _ hab⟩, altitude_set hcol, fun x => ?_, fun x => ?_⟩
  · rw [add_sub_cancel]; exact footE_mem _ _ _
  · rw [add_sub_cancel]; exact footE_mem _ _ _
  · rw [add_sub_cancel]; exact footE_mem _ _ _
  · rw [altitude_set hB, InPlaneOf.perm1]
  · rw [altitude_set hC, InPlaneOf.perm1, InPlaneOf.perm1]

/-- C59: the orthocenter.  The three altitudes of a constructed triangle meet in exactly one point `H`.
In dimension at most 3 `orthocenter` returns `H` precisely when the altitudes from `A` and `B` are not accepted
as parallel, and raises `ValueError` otherwise; in higher dimension it always raises. -/
theorem C59_orthocenter {a b c : E n} {T : Triangle ℝ} (h : Triangle.new (arr a) (arr b) (arr c) = .ok T) :
    ∃ H : E n, (InPlaneOf a b c H ∧ inner ℝ (H - a) (c - b) = (0 : ℝ) ∧ inner ℝ (H - b) (a - c) = (0 : ℝ) ∧
        inner ℝ (H - c) (b - a) = (0 : ℝ)) ∧
      (∀ x, InPlaneOf a b c x → inner ℝ (x - a) (c - b) = (0 : ℝ) → inner ℝ (x - b) (a - c) = (0 : ℝ) → x = H) ∧
      (∀ (check : Bool) (tol : Tol ℝ), tol.Nonneg → n ≤ 3 →
        ∃ LA LB, T.altitude "A" = .ok LA ∧ T.altitude "B" = .ok LB ∧
        (Vec.isParallel tol LA.direction LB.direction = .ok false → T.orthocenter check tol = .ok (arr H)) ∧
        (Vec.isParallel tol LA.direction LB.direction ≠ .ok false →
          ∃ msg, T.orthocenter check tol = .error (.valueError msg))) ∧
      (∀ (check : Bool) (tol : Tol ℝ) l, tol.Nonneg → T.orthocenter check tol = .ok l → l = arr H) ∧
      (3 < n → ∀ (check : Bool) (tol : Tol ℝ), ∃ msg, T.orthocenter check tol = .error (.valueError msg)) := by
  obtain ⟨dA, dB, dC, nA, nB, nC, eA, eB, eC, -, -, -, -, sA, sB, sC⟩ := C59_altitude h
  obtain ⟨hn, rfl, hcol, hab, hbc, hac⟩ := Triangle.facts h
  obtain ⟨H, hH, h1, h2, h3⟩ := ortho_exists hcol
  have lA := Line.new_arr a nA
  have lB := Line.new_arr b nB
  have eo : ∀ check tol, Triangle.orthocenter ⟨arr a, arr b, arr c⟩ check tol =
      Line.intersectLine ⟨arr a, arr dA⟩ ⟨arr b, arr dB⟩ check tol := by
    intro check tol
    simp only [Triangle.orthocenter, eA, eB, lA, lB, ok_bind]
  have hgt : 3 < n → ∀ (check : Bool) (tol : Tol ℝ),
      ∃ msg, Triangle.orthocenter ⟨arr a, arr b, arr c⟩ check tol = .error (.valueError msg) := by
    intro h3n check tol
    rw [eo]
    exact (C28_intersect_line_errors lA lB check tol).1 (Or.inr (Or.inl h3n))
  have hmain : ∀ (check : Bool) (tol : Tol ℝ), tol.Nonneg → n ≤ 3 →
        ∃ LA LB, Triangle.altitude ⟨arr a, arr b, arr c⟩ "A" = .ok LA ∧
          Triangle.altitude ⟨arr a, arr b, arr c⟩ "B" = .ok LB ∧
        (Vec.isParallel tol LA.direction LB.direction = .ok false →
          Triangle.orthocenter ⟨arr a, arr b, arr c⟩ check tol = .ok (arr H)) ∧
        (Vec.isParallel tol LA.direction LB.direction ≠ .ok false →
          ∃ msg, Triangle.orthocenter ⟨arr a, arr b, arr c⟩ check tol = .error (.valueError msg)) := by
    intro check tol ht hn3
    refine ⟨_, _, eA.trans lA, eB.trans lB, fun hp => ?_, fun hp => ?_⟩
    · rw [eo]
      exact (C28_intersect_line_complete hn3 lA lB ((sA H).mpr ⟨hH, h1⟩) ((sB H).mpr ⟨hH, h2⟩) check ht hp).1
    · rw [eo]
      refine (C28_intersect_line_errors lA lB check tol).1 (Or.inr (Or.inr (Or.inl ?_)))
      rw [isParallel_arr ht] at hp ⊢
      simpa using hp
  refine ⟨H, ⟨hH, h1, h2, h3⟩, fun x hx x1 x2 => ortho_unique hx hH x1 x2 h1 h2, hmain, ?_, hgt⟩
  intro check tol l ht hl
  have hn3 : n ≤ 3 := by
    by_contra hc
    obtain ⟨msg, hm⟩ := hgt (by omega) check tol
    rw [hm] at hl; cases hl
  obtain ⟨LA, LB, -, -, g1, g2⟩ := hmain check tol ht hn3
  by_cases hp : Vec.isParallel tol LA.direction LB.direction = .ok false
  · rw [g1 hp] at hl; injection hl with hl; exact hl.symm
  · obtain ⟨msg, hm⟩ := g2 hp
    rw [hm] at hl; cases hl

omit [NumpyExt ℝ] [LawfulNumpy] in
theorem footE_vec2 (x y p q a b : ℝ) : footE (vec2 x y) (vec2 p q - vec2 x y) (vec2 a b) - vec2 a b =
    vec2 (x + ((p - x) * (a - x) + (q - y) * (b - y)) / ((p - x) ^ 2 + (q - y) ^ 2) * (p - x) - a)
      (y + ((p - x) * (a - x) + (q - y) * (b - y)) / ((p - x) ^ 2 + (q - y) ^ 2) * (q - y) - b) := by
  have hn : ‖vec2 p q - vec2 x y‖ ^ 2 = (p - x) ^ 2 + (q - y) ^ 2 := by
    rw [EuclideanSpace.norm_sq_eq]; simp [vec2, Fin.sum_univ_two]
  have hi : inner ℝ (vec2 p q - vec2 x y) (vec2 a b - vec2 x y) = ((p - x) * (a - x) + (q - y) * (b - y) : ℝ) := by
    simp [vec2, PiLp.inner_apply, Fin.sum_univ_two]; ring
  rw [footE, hn, hi]
  ext i; fin_cases i <;> simp [vec2]

omit [NumpyExt ℝ] [LawfulNumpy] in
theorem altitude_dirs {a b c : E n} {LA LB : Line ℝ} [NeZero n] (h : ¬ Collinear ℝ ({a, b, c} : Set (E n)))
    (hA : Triangle.altitude ⟨arr a, arr b, arr c⟩ "A" = .ok LA)
    (hB : Triangle.altitude ⟨arr a, arr b, arr c⟩ "B" = .ok LB) :
    LA.direction = arr (footE b (c - b) a - a) ∧ LB.direction = arr (footE c (a - c) b - b) := by
  have hB' : ¬ Collinear ℝ ({b, c, a} : Set (E n)) := by rwa [collinear_perm1]
  have eA : Triangle.altitude ⟨arr a, arr b, arr c⟩ "A" = .ok ⟨arr a, arr (footE b (c - b) a - a)⟩ := by
    rw [← Triangle.altitude_arr h]; rfl
  have eB : Triangle.altitude ⟨arr a, arr b, arr c⟩ "B" = .ok ⟨arr b, arr (footE c (a - c) b - b)⟩ := by
    rw [← Triangle.altitude_arr hB']; rfl
  rw [eA] at hA; rw [eB] at hB
  injection hA with hA; injection hB with hB
  subst hA hB; exact ⟨rfl, rfl⟩

omit [NumpyExt ℝ] [LawfulNumpy] in
theorem nearParallel_vec2 {p q r s : ℝ} (h : p ^ 2 + q ^ 2 = r ^ 2 + s ^ 2) (h0 : p ^ 2 + q ^ 2 ≠ 0) :
    NearParallel (vec2 p q) (vec2 r s) ↔ 1 - 1 / 1000000000 ≤ |(p * r + q * s) / (p ^ 2 + q ^ 2)| := by
  have hnorm : ∀ x y : ℝ, ‖vec2 x y‖ = Real.sqrt (x ^ 2 + y ^ 2) := by
    intro x y; rw [EuclideanSpace.norm_eq]; simp [vec2, Fin.sum_univ_two]
  have hz : ∀ x y : ℝ, x ^ 2 + y ^ 2 ≠ 0 → vec2 x y ≠ 0 := by
    intro x y hxy e
    have := hnorm x y
    rw [e, norm_zero, eq_comm, Real.sqrt_eq_zero (by positivity)] at this
    exact hxy this
  have hc : cosE (vec2 p q) (vec2 r s) = (p * r + q * s) / (p ^ 2 + q ^ 2) := by
    rw [cosE, hnorm, hnorm, ← h, Real.mul_self_sqrt (by positivity)]
    simp [vec2, PiLp.inner_apply, Fin.sum_univ_two]; ring
  rw [NearParallel, hc]
  simp [hz p q h0, hz r s (h ▸ h0)]

/-- C59, defect: the triangle `(0,0), (1,0), (0.5, 1e-6)` is accepted by the constructor, but its orthocenter
(which exists) is not returned: `ValueError`. -/
theorem C59_thin_triangle_raises : ∃ T : Triangle ℝ,
    Triangle.new (arr (vec2 0 0)) (arr (vec2 1 0)) (arr (vec2 (1 / 2) (1 / 1000000))) = .ok T ∧
    ∀ check, ∃ msg, T.orthocenter check Tol.default = .error (.valueError msg) := by
  obtain ⟨T, hT⟩ := triangle_thin
  refine ⟨T, hT, fun check => ?_⟩
  obtain ⟨H, -, -, hmain, -⟩ := C59_orthocenter hT
  obtain ⟨LA, LB, hA, hB, -, hp⟩ := hmain check Tol.default Tol.default_nonneg (by norm_num)
  obtain ⟨hn, rfl, hcol, -⟩ := Triangle.facts hT
  apply hp
  obtain ⟨dA, dB⟩ := altitude_dirs hcol hA hB
  rw [dA, dB, footE_vec2, footE_vec2, isParallel_default_arr]
  norm_num
  rw [nearParallel_vec2 (by norm_num) (by norm_num)]
  apply le_trans _ (le_abs_self _)
  norm_num

/-- Non-vacuity: the right isosceles triangle has its orthocenter returned. -/
example : ∃ T : Triangle ℝ, Triangle.new (arr (vec2 0 0)) (arr (vec2 2 0)) (arr (vec2 1 1)) = .ok T ∧
    T.orthocenter true Tol.default = .ok (arr (vec2 1 1)) := by
  have hT := Triangle.new_vec2 (a1 := 0) (a2 := 0) (b1 := 2) (b2 := 0) (c1 := 1) (c2 := 1) (by norm_num)
  refine ⟨_, hT, ?_⟩
  obtain ⟨H, -, huniq, hmain, -⟩ := C59_orthocenter hT
  obtain ⟨LA, LB, hA, hB, hp, -⟩ := hmain true Tol.default Tol.default_nonneg (by norm_num)
  obtain ⟨hn, -, hcol, -⟩ := Triangle.facts hT
  obtain ⟨dA, dB⟩ := altitude_dirs hcol hA hB
  rw [hp]
  · congr 2
    refine (huniq _ ⟨0, 0, 1, by norm_num, by simp⟩ ?_ ?_).symm <;>
      simp [vec2, PiLp.inner_apply, Fin.sum_univ_two] <;> norm_num
  · rw [dA, dB, footE_vec2, footE_vec2, isParallel_default_arr]
    norm_num
    rw [nearParallel_vec2 (by norm_num) (by norm_num)]
    norm_num

end SkSpatial
