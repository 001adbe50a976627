import Verif.Props.Rounding20
/-! # C112: what `cylinder.intersect_line(line, infinite=False)` can return under rounding -/

namespace SkSpatial
open StdRounding

variable {u : ℝ} {fl : Arith}

/-- A point that a rounded `_intersect_cap` accepts is near the line and near the cylinder. -/
theorem cap_near (h : StdRounding u fl) (hu : u ≤ 1 / 10 ^ 5) {p c a q d : E 3} (ha : a ≠ 0) (hd : d ≠ 0) {r τ Λ : ℝ} (hr : 0 < r)
    (hτ : τ = 0 ∨ τ = 1) (hc : ‖c - (p + τ • a)‖ ≤ u * (‖p‖ + ‖a‖)) (hΛ : Λ = ‖p‖ + ‖q‖ + ‖a‖ + r) :
    ∃ Y : Option (E 3), @Cylinder.intersectCap ℝ (rounded fl) ⟨arr p, arr a, r⟩ ⟨arr q, arr d⟩ ⟨arr c, arr a⟩ = .ok (Y.map arr) ∧
      ∀ y, Y = some y → Metric.infDist y (lineSet q d) ≤ 8 * u * Λ ∧ Metric.infDist y (solidCyl p a r) ≤ 50 * u * Λ := by
  classical
  have hu0 := h.nonneg
  have hu1 : u ≤ 1 / 100000 := by norm_num at hu ⊢; exact hu
  obtain ⟨A, B, hA, hB, k0, k1⟩ := cap_calc h hu (p := p) (c := c) (q := q) ha hd r
  by_cases hB0 : B = 0
  · exact ⟨none, k0 hB0, by simp⟩
  obtain ⟨T, g, y, hT, hy, hg, hcap⟩ := k1 hB0
  refine ⟨if g ≤ r then some y else none, ?_, ?_⟩
  · rw [hcap]; split_ifs <;> rfl
  intro z hz
  have hgr : g ≤ r := by
    by_contra hn
    rw [if_neg hn] at hz; cases hz
  rw [if_pos hgr] at hz
  obtain rfl : y = z := by simpa using hz
  obtain ⟨δ, hδ⟩ : ∃ δ, δ = dist y c := ⟨_, rfl⟩
  have hδ0 : 0 ≤ δ := by rw [hδ]; exact dist_nonneg
  have hΛ0 : 0 ≤ Λ := by rw [hΛ]; positivity
  have huΛ : 0 ≤ u * Λ := by positivity
  have huΛ1 : u * Λ ≤ 1 / 100000 * Λ := mul_le_mul_of_nonneg_right hu1 hΛ0
  have hqc : ‖q - c‖ ≤ 101 / 100 * (‖p‖ + ‖q‖ + ‖a‖) := by
    have e1 : q - c = q - p - τ • a - (c - (p + τ • a)) := by abel
    rw [e1]
    have e2 := norm_sub_le (q - p - τ • a) (c - (p + τ • a))
    have e3 := norm_sub_le (q - p) (τ • a)
    have e4 := norm_sub_le q p
    have e5 : ‖τ • a‖ ≤ ‖a‖ := by rcases hτ with rfl | rfl <;> simp
    have e6 : u * (‖p‖ + ‖a‖) ≤ 1 / 100000 * (‖p‖ + ‖a‖) := mul_le_mul_of_nonneg_right hu1 (by positivity)
    linarith [norm_nonneg p, norm_nonneg q, norm_nonneg a]
  have hqc' : ‖q - c‖ ≤ 101 / 100 * (Λ - r) := by rw [hΛ]; linarith
  have hrΛ : r ≤ Λ := by rw [hΛ]; linarith [norm_nonneg p, norm_nonneg q, norm_nonneg a]
  have hqΛ : ‖q‖ ≤ Λ := by rw [hΛ]; linarith [norm_nonneg p, norm_nonneg q, norm_nonneg a]
  have hpΛ : ‖p‖ + ‖a‖ ≤ Λ := by rw [hΛ]; linarith [norm_nonneg p, norm_nonneg q, norm_nonneg a]
  rw [← hδ] at hg
  have hδr : δ ≤ r + 10 * u * r := by
    have h1 := (abs_le.mp hg).1
    have h2 : u * δ ≤ 1 / 100000 * δ := mul_le_mul_of_nonneg_right hu1 hδ0
    have h3 : δ ≤ 101 / 100 * r := by linarith
    have h4 := mul_le_mul_of_nonneg_left h3 hu0
    have h5 : 0 ≤ u * r := by positivity
    linarith
  have hur : u * r ≤ u * Λ := mul_le_mul_of_nonneg_left hrΛ hu0
  have hTn : |T| ≤ 103 / 100 * Λ := by
    have e1 : T • ‖d‖⁻¹ • d = -(y - (q + T • ‖d‖⁻¹ • d)) + (y - c) - (q - c) := by abel
    have e2 : ‖T • ‖d‖⁻¹ • d‖ = |T| := by rw [norm_smul, norm_unit hd, mul_one, Real.norm_eq_abs]
    have e3 : |T| ≤ u * (2 * ‖q‖ + 5 * |T|) + δ + ‖q - c‖ := by
      rw [← e2, e1]
      refine (norm_sub_le _ _).trans (add_le_add ((norm_add_le _ _).trans (add_le_add ?_ ?_)) le_rfl)
      · rw [norm_neg, ← e1, e2]; exact hy
      · rw [hδ, dist_eq_norm]
    have e4 : u * |T| ≤ 1 / 100000 * |T| := mul_le_mul_of_nonneg_right hu1 (abs_nonneg T)
    have e5 : u * ‖q‖ ≤ 1 / 100000 * ‖q‖ := mul_le_mul_of_nonneg_right hu1 (norm_nonneg q)
    linarith
  have huT : u * |T| ≤ 103 / 100 * (u * Λ) := by
    have := mul_le_mul_of_nonneg_left hTn hu0; linarith
  have huq : u * ‖q‖ ≤ u * Λ := mul_le_mul_of_nonneg_left hqΛ hu0
  have hy' : ‖y - (q + T • ‖d‖⁻¹ • d)‖ ≤ 8 * u * Λ := by linarith
  constructor
  · refine (Metric.infDist_le_dist_of_mem (by rw [← lineSet_unit' q hd]; exact ⟨T, rfl⟩)).trans ?_
    rw [dist_eq_norm]; exact hy'
  -- the height
  have hf := norm_unit ha
  have hin : ∀ v : E 3, |(inner ℝ v (‖a‖⁻¹ • a) : ℝ)| ≤ ‖v‖ := fun v => by
    have := abs_real_inner_le_norm v (‖a‖⁻¹ • a)
    rwa [hf, mul_one] at this
  have hh : |(inner ℝ (y - c) (‖a‖⁻¹ • a) : ℝ)| ≤ 31 * u * Λ := by
    have e1 : (inner ℝ (y - c) (‖a‖⁻¹ • a) : ℝ) = inner ℝ (y - (q + T • ‖d‖⁻¹ • d)) (‖a‖⁻¹ • a) -
        (A - inner ℝ (q - c) (‖a‖⁻¹ • a)) - (B - inner ℝ (‖d‖⁻¹ • d) (‖a‖⁻¹ • a)) * T := by
      have : y - c = (y - (q + T • ‖d‖⁻¹ • d)) + (q - c) + T • ‖d‖⁻¹ • d := by abel
      rw [this, inner_add_left, inner_add_left, real_inner_smul_left (‖d‖⁻¹ • d) _ T]
      linear_combination hT
    rw [e1]
    have e2 := abs_sub (inner ℝ (y - (q + T • ‖d‖⁻¹ • d)) (‖a‖⁻¹ • a) - (A - inner ℝ (q - c) (‖a‖⁻¹ • a)))
      ((B - inner ℝ (‖d‖⁻¹ • d) (‖a‖⁻¹ • a)) * T)
    have e3 := abs_sub (inner ℝ (y - (q + T • ‖d‖⁻¹ • d)) (‖a‖⁻¹ • a)) (A - inner ℝ (q - c) (‖a‖⁻¹ • a))
    have e4 := hin (y - (q + T • ‖d‖⁻¹ • d))
    have e5 := mul_le_mul_of_nonneg_right hB (abs_nonneg T)
    rw [← abs_mul] at e5
    have e6 := mul_le_mul_of_nonneg_left hqc' hu0
    have : 0 ≤ u * r := by positivity
    linarith
  have hps : signedDist p a y = τ * ‖a‖ + inner ℝ (y - c) (‖a‖⁻¹ • a) + inner ℝ (c - (p + τ • a)) (‖a‖⁻¹ • a) := by
    have hn : ‖a‖ ≠ 0 := norm_ne_zero_iff.mpr ha
    have e1 : (inner ℝ (τ • a) (‖a‖⁻¹ • a) : ℝ) = τ * ‖a‖ := by
      rw [real_inner_smul_left, real_inner_smul_right, real_inner_self_eq_norm_sq]; field_simp
    rw [← signedDist_eq, real_inner_comm, ← e1, ← inner_add_left, ← inner_add_left]
    congr 1; abel
  have hci := (hin (c - (p + τ • a))).trans (hc.trans (mul_le_mul_of_nonneg_left hpΛ hu0))
  have h32 : |signedDist p a y - τ * ‖a‖| ≤ 32 * u * Λ := by
    rw [hps]
    have := abs_add_le (inner ℝ (y - c) (‖a‖⁻¹ • a) : ℝ) (inner ℝ (c - (p + τ • a)) (‖a‖⁻¹ • a))
    rw [show τ * ‖a‖ + inner ℝ (y - c) (‖a‖⁻¹ • a) + inner ℝ (c - (p + τ • a)) (‖a‖⁻¹ • a) - τ * ‖a‖ =
      inner ℝ (y - c) (‖a‖⁻¹ • a) + inner ℝ (c - (p + τ • a)) (‖a‖⁻¹ • a) by ring]
    linarith
  have hft : dist y (foot p a y) ≤ r + 11 * u * Λ := by
    have e1 : dist y (foot p a y) ≤ dist y (p + τ • a) := foot_dist_le p a y ha τ
    have e2 := dist_triangle y c (p + τ • a)
    rw [← hδ, dist_eq_norm c] at e2
    have := hc.trans (mul_le_mul_of_nonneg_left hpΛ hu0)
    linarith
  obtain ⟨m1, m2⟩ := abs_le.mp h32
  have hta : 0 ≤ τ * ‖a‖ ∧ τ * ‖a‖ ≤ ‖a‖ := by rcases hτ with rfl | rfl <;> simp
  obtain ⟨w, hw, hwd⟩ := near_solidCyl ha hr (α := 32 * u * Λ) (β := 11 * u * Λ) (by positivity) (by positivity) (by linarith) (by linarith) hft
  refine (Metric.infDist_le_dist_of_mem hw).trans ?_
  linarith

/-- Where a point of a rounded intersection comes from: a cap, or the lateral surface between the planes of the caps. -/
theorem finite_mem {K : Type} [PyNum K] {C : Cylinder K} {L : Line K} {nd : Option Int} {ob ot : Option (List K)} {res : List K × List K}
    (hc : Cylinder.intersectCaps C L = .ok (ob, ot)) (hb : ∀ A B, Cylinder.intersectInfinite C L nd = .ok (A, B) →
      (∃ b, Cylinder.betweenCapPlanes C A = .ok b) ∧ ∃ b, Cylinder.betweenCapPlanes C B = .ok b)
    (hres : Cylinder.intersectFinite C L nd = .ok res) :
    ∀ z, z = res.1 ∨ z = res.2 → ob = some z ∨ ot = some z ∨ ∃ A B, Cylinder.intersectInfinite C L nd = .ok (A, B) ∧ (z = A ∨ z = B) ∧
      Cylinder.betweenCapPlanes C z = .ok true := by
  by_cases hboth : ∃ b t, ob = some b ∧ ot = some t
  · obtain ⟨b, t, rfl, rfl⟩ := hboth
    rw [finite_both hc, Except.ok.injEq] at hres
    subst hres
    rintro z (rfl | rfl)
    · exact Or.inl rfl
    · exact Or.inr (Or.inl rfl)
  · have ho : ob = none ∨ ot = none := by
      rcases ob with _ | b
      · exact Or.inl rfl
      · rcases ot with _ | t
        · exact Or.inr rfl
        · exact absurd ⟨_, _, rfl, rfl⟩ hboth
    rcases hi : Cylinder.intersectInfinite C L nd with e | ⟨A, B⟩
    · rw [finite_error hc ho hi] at hres; cases hres
    · obtain ⟨⟨bA, hA⟩, bB, hB⟩ := hb A B hi
      rw [finite_ok hc ho hi hA hB] at hres
      rintro z hz
      have key : ∀ (b : Bool) (A' : List K), Cylinder.betweenCapPlanes C A' = .ok b → (A' = A ∨ A' = B) → (if b then some A' else ob.or ot) = some z →
          ob = some z ∨ ot = some z ∨ ∃ A'' B'', (.ok (A, B) : Res (List K × List K)) = .ok (A'', B'') ∧ (z = A'' ∨ z = B'') ∧
            Cylinder.betweenCapPlanes C z = .ok true := by
        intro b A' hA' hor hif
        cases b
        · rcases ob with _ | b
          · right; left; simpa using hif
          · left; simpa using hif
        · simp only [if_true, Option.some.injEq] at hif
          subst hif
          exact Or.inr (Or.inr ⟨A, B, rfl, hor, hA'⟩)
      rcases hs : (if bA then some A else ob.or ot) with _ | a'
      · rw [hs] at hres; cases hres
      · rcases hs' : (if bB then some B else ob.or ot) with _ | b'
        · rw [hs, hs'] at hres; cases hres
        · rw [hs, hs', Except.ok.injEq] at hres
          subst hres
          rcases hz with rfl | rfl
          · exact key bA A hA (Or.inl rfl) hs
          · exact key bB B hB (Or.inr rfl) hs'

theorem returned_const {u Λ β a r x s ℓ δ : ℝ} (hu0 : 0 ≤ u) (hu1 : u ≤ 1 / 100000) (hβ : 0 ≤ β) (ha : 0 ≤ a) (hr : 0 < r) (haΛ : a + r ≤ Λ)
    (h0 : 0 ≤ s) (h1 : s ≤ ℓ) (hℓ : |ℓ - a| ≤ 6 * u * a) (hs : |s - x| ≤ 18 * u * δ) (hδ : δ ≤ r + β + |x|) :
    -(40 * u * Λ + β) ≤ x ∧ x ≤ a + (40 * u * Λ + β) := by
  obtain ⟨l1, l2⟩ := abs_le.mp hℓ
  obtain ⟨s1, s2⟩ := abs_le.mp hs
  have ua : u * a ≤ 1 / 100000 * a := mul_le_mul_of_nonneg_right hu1 ha
  have hx : |x| ≤ s + 18 * u * δ := by
    rw [abs_le]; constructor <;> linarith
  have hδ0 : 0 ≤ 18 * u * δ := (abs_nonneg _).trans hs
  have uβ : u * β ≤ 1 / 100000 * β := mul_le_mul_of_nonneg_right hu1 hβ
  have uδ := mul_le_mul_of_nonneg_left hδ hu0
  have ux := mul_le_mul_of_nonneg_right hu1 (abs_nonneg x)
  have ur : u * r ≤ 1 / 100000 * r := mul_le_mul_of_nonneg_right hu1 hr.le
  have hx1 : |x| ≤ 102 / 100 * (a + r + β) := by linarith
  have ux1 := mul_le_mul_of_nonneg_left hx1 hu0
  have uΛ := mul_le_mul_of_nonneg_left haΛ hu0
  have : 0 ≤ u * r := by positivity
  have : 0 ≤ u * a := by positivity
  constructor
  · linarith
  · linarith

theorem exists_least {p a q d : E 3} (hli : LinearIndependent ℝ ![a, d]) : ∃ H, IsLeast (lineDistances p a q d) H := by
  obtain ⟨-, -, hle⟩ := closest_points le_rfl (p := p) (q := q) hli
  obtain ⟨x, hx⟩ : ∃ x, x ∈ lineSet p a ∧ ∃ y ∈ lineSet q d, ∀ x' ∈ lineSet p a, ∀ y' ∈ lineSet q d, dist x y ≤ dist x' y' :=
    ⟨_, ⟨_, rfl⟩, _, ⟨-_, by rw [neg_smul, ← sub_eq_add_neg]⟩, hle⟩
  obtain ⟨hx, y, hy, hm⟩ := hx
  exact ⟨_, ⟨x, hx, y, hy, rfl⟩, by rintro _ ⟨x', hx', y', hy', rfl⟩; exact hm x' hx' y' hy'⟩

set_option maxHeartbeats 2000000 in
/-- **C112** Whatever the position of the line with respect to the rims: a point that `cylinder.intersect_line(line, infinite=False)` returns
under rounding is near the line and near the cylinder. -/
theorem C112_returned (h : StdRounding u fl) {p a q d : E 3} {r : ℝ} {C : Cylinder ℝ} {L : Line ℝ}
    (hC : @Cylinder.new ℝ (rounded fl) (arr p) (arr a) r = .ok C) (hL : @Line.new ℝ (rounded fl) (arr q) (arr d) = .ok L)
    {s Λ : ℝ} (hse : s = √(1 - cosE a d ^ 2)) (hs : 0 < s) (hus : 10 ^ 5 * u ≤ s) (hΛ : Λ = ‖p‖ + ‖q‖ + ‖a‖ + r)
    {nd : Option Int} (hnd : nd = none ∨ nd = some 0) {res : List ℝ × List ℝ}
    (hres : @Cylinder.intersectLine ℝ (rounded fl) C L nd false = .ok res) :
    ∃ y y' : E 3, res = (arr y, arr y') ∧ ∀ z, z = y ∨ z = y' →
      Metric.infDist z (lineSet q d) ≤ u * (8 * Λ + 30 * ((dist q p + r) / s)) ∧
      Metric.infDist z (solidCyl p a r) ≤ u * (50 * Λ + 2200 * ((dist q p ^ 2 + r ^ 2) / (s * r))) := by
  classical
  have hu0 := h.nonneg
  have hs1 : s ≤ 1 := by rw [hse, Real.sqrt_le_one]; linarith [sq_nonneg (cosE a d)]
  have hu : u ≤ 1 / 10 ^ 5 := by rw [le_div_iff₀ (by positivity)]; linarith
  have hu1 : u ≤ 1 / 100000 := by norm_num at hu ⊢; exact hu
  obtain ⟨ha, hr, rfl⟩ := cylinder_new_rd h (by linarith) hC
  obtain ⟨hd, rfl⟩ := line_new_rd h (by linarith) hL
  have hli : LinearIndependent ℝ ![a, d] := sine_independent ha hd (hse ▸ hs)
  obtain ⟨H, hH⟩ := exists_least hli (p := p) (q := q)
  have hinf := (C111_infinite_cylinder h hC hL hse hs hus hH hnd).2.2
  have hintR : @Cylinder.intersectLine ℝ (rounded fl) ⟨arr p, arr a, r⟩ ⟨arr q, arr d⟩ nd false =
      @Cylinder.intersectFinite ℝ (rounded fl) ⟨arr p, arr a, r⟩ ⟨arr q, arr d⟩ nd := by
    simp [Cylinder.intersectLine, Line.dimension]
  have hinfR : @Cylinder.intersectLine ℝ (rounded fl) ⟨arr p, arr a, r⟩ ⟨arr q, arr d⟩ nd true =
      @Cylinder.intersectInfinite ℝ (rounded fl) ⟨arr p, arr a, r⟩ ⟨arr q, arr d⟩ nd := by
    simp [Cylinder.intersectLine, Line.dimension]
  rw [hintR] at hres
  rw [hinfR] at hinf
  obtain ⟨c, hc, hci⟩ := vadd_rd (fl := fl) p a
  have hcn : ‖c - (p + (1 : ℝ) • a)‖ ≤ u * (‖p‖ + ‖a‖) := by
    rw [one_smul]
    have h1 : ‖c - (p + a)‖ ≤ u * ‖p + a‖ := by
      refine norm_le_of_coords hu0 fun i => ?_
      rw [PiLp.sub_apply, hci]
      exact h.err _
    exact h1.trans (mul_le_mul_of_nonneg_left (norm_add_le _ _) hu0)
  obtain ⟨Y, e1, e2⟩ := cap_near h hu (c := p) (τ := 0) ha hd hr (Or.inl rfl) (by
    rw [zero_smul, add_zero, sub_self, norm_zero]; positivity) hΛ
  obtain ⟨Y', f1, f2⟩ := cap_near h hu (c := c) (τ := 1) ha hd hr (Or.inr rfl) hcn hΛ
  have hz := C73_is_zero h (by linarith) a
  have hcaps : @Cylinder.intersectCaps ℝ (rounded fl) ⟨arr p, arr a, r⟩ ⟨arr q, arr d⟩ = .ok (Y.map arr, Y'.map arr) := by
    simp [Cylinder.intersectCaps, Plane.new, newLinePlane, new1D_rd, hz, ha, hc, e1, f1]
  have hl := (h.normv_rp le_rfl (CRP.refl (eps u) a)).abs_sub_le
  rw [show (0 + ((3 : ℕ) + 3) / 2 : ℝ) = 3 by norm_num, abs_of_nonneg (norm_nonneg _)] at hl
  obtain ⟨ℓ, hℓ⟩ : ∃ ℓ, ℓ = @normv ℝ (rounded fl) (arr a) := ⟨_, rfl⟩
  rw [← hℓ] at hl
  have x9 : Real.exp (9 * eps u) - 1 ≤ 2 * 9 * u := exp_eps_le2 h (by norm_num) (by linarith)
  have x3 : Real.exp (3 * eps u) - 1 ≤ 2 * 3 * u := exp_eps_le2 h (by norm_num) (by linarith)
  have hℓ' : |ℓ - ‖a‖| ≤ 6 * u * ‖a‖ := hl.trans (by linarith [mul_le_mul_of_nonneg_right x3 (norm_nonneg a)])
  have hbet : ∀ y : E 3, ∃ k : ℝ, |k - signedDist p a y| ≤ 18 * u * dist y p ∧
      @Cylinder.betweenCapPlanes ℝ (rounded fl) ⟨arr p, arr a, r⟩ (arr y) = .ok (decide (0 ≤ k) && decide (k ≤ ℓ)) := by
    intro y
    obtain ⟨k, hk, hke⟩ := planeSigned_rd h p a y ha
    rw [signedDist_eq, show ((3 * (3 : ℕ) + 9) / 2 : ℝ) = 9 by norm_num] at hke
    refine ⟨k, hke.trans (by linarith [mul_le_mul_of_nonneg_right x9 (dist_nonneg (x := y) (y := p))]), ?_⟩
    simp [Cylinder.betweenCapPlanes, Plane.new, newLinePlane, new1D_rd, hz, ha, hk, le_rd, zero_rd, Cylinder.length, Vec.norm, hℓ]
  have hmem := @finite_mem ℝ (rounded fl) _ _ _ _ _ _ hcaps (by
    intro A B hAB
    obtain ⟨y, y', he, -⟩ := hinf _ hAB
    simp only [Prod.mk.injEq] at he
    rw [he.1, he.2]
    obtain ⟨k, -, h1⟩ := hbet y
    obtain ⟨k', -, h2⟩ := hbet y'
    exact ⟨⟨_, h1⟩, _, h2⟩) hres
  have hΛ0 : 0 ≤ Λ := by rw [hΛ]; positivity
  have haΛ : ‖a‖ + r ≤ Λ := by rw [hΛ]; linarith [norm_nonneg p, norm_nonneg q]
  have hqΛ : u * ‖q‖ ≤ u * Λ := mul_le_mul_of_nonneg_left (by rw [hΛ]; linarith [norm_nonneg p, norm_nonneg a]) hu0
  obtain ⟨Q, hQ⟩ : ∃ Q, Q = (dist q p ^ 2 + r ^ 2) / (s * r) := ⟨_, rfl⟩
  have hQ0 : 0 ≤ Q := by rw [hQ]; positivity
  obtain ⟨P, hP⟩ : ∃ P, P = (dist q p + r) / s := ⟨_, rfl⟩
  have hP0 : 0 ≤ P := by rw [hP]; positivity
  rw [← hQ, ← hP]
  simp only [← hQ, ← hP] at hinf
  have uP : 0 ≤ u * P := by positivity
  have uQ : 0 ≤ u * Q := by positivity
  have uΛ : 0 ≤ u * Λ := by positivity
  have key : ∀ z : List ℝ, z = res.1 ∨ z = res.2 → ∃ y : E 3, z = arr y ∧
      Metric.infDist y (lineSet q d) ≤ u * (8 * Λ + 30 * P) ∧ Metric.infDist y (solidCyl p a r) ≤ u * (50 * Λ + 2200 * Q) := by
    intro z hz
    rcases hmem z hz with hY | hY | ⟨A, B, hAB, hor, hb⟩
    · obtain ⟨y, rfl, rfl⟩ := Option.map_eq_some_iff.mp hY
      obtain ⟨m1, m2⟩ := e2 y rfl
      exact ⟨y, rfl, by linarith, by linarith⟩
    · obtain ⟨y, rfl, rfl⟩ := Option.map_eq_some_iff.mp hY
      obtain ⟨m1, m2⟩ := f2 y rfl
      exact ⟨y, rfl, by linarith, by linarith⟩
    · obtain ⟨y, y', he, hall⟩ := hinf _ hAB
      simp only [Prod.mk.injEq] at he
      obtain ⟨w, rfl, hw⟩ : ∃ w, z = arr w ∧ (w = y ∨ w = y') := by
        rcases hor with rfl | rfl
        · exact ⟨y, he.1, Or.inl rfl⟩
        · exact ⟨y', he.2, Or.inr rfl⟩
      obtain ⟨m1, m2⟩ := hall w hw
      refine ⟨w, rfl, by linarith, ?_⟩
      obtain ⟨k, hk, hkb⟩ := hbet w
      rw [hkb] at hb
      simp only [Except.ok.injEq, Bool.and_eq_true, decide_eq_true_eq] at hb
      have hfoot : Metric.infDist w (lineSet p a) = dist w (foot p a w) := by
        rw [infDist_lineSet p ha, foot, footE, real_inner_comm]
      rw [hfoot] at m2
      obtain ⟨β, hβ⟩ : ∃ β, β = u * (2 * ‖q‖ + 1100 * Q) := ⟨_, rfl⟩
      rw [← hβ] at m2
      have hβ0 : 0 ≤ β := by rw [hβ]; positivity
      have m3 := (abs_le.mp m2).2
      have hδ : dist w p ≤ r + β + |signedDist p a w| := by
        have e1 := dist_triangle w (foot p a w) p
        have e2 : dist (foot p a w) p = |signedDist p a w| := by
          have hn : 0 < ‖a‖ := norm_pos_iff.mpr ha
          rw [dist_eq_norm, foot, add_sub_cancel_left, norm_smul, signedDist, Real.norm_eq_abs, abs_div, abs_div, abs_norm, abs_of_pos (by positivity : 0 < ‖a‖ ^ 2)]
          field_simp
        linarith
      obtain ⟨g1, g2⟩ := returned_const hu0 hu1 hβ0 (norm_nonneg a) hr haΛ hb.1 hb.2 hℓ' hk hδ
      obtain ⟨v, hv, hvd⟩ := near_solidCyl ha hr (α := 40 * u * Λ + β) (β := β) (by positivity) hβ0 (by linarith) g2 (by linarith)
      refine (Metric.infDist_le_dist_of_mem hv).trans (hvd.trans ?_)
      rw [hβ]; linarith
  obtain ⟨y, hy1, hy⟩ := key res.1 (Or.inl rfl)
  obtain ⟨y', hy1', hy'⟩ := key res.2 (Or.inr rfl)
  refine ⟨y, y', Prod.ext hy1 hy1', ?_⟩
  rintro z (rfl | rfl)
  · exact hy
  · exact hy'

/-- The cylinder of radius 1 between the origin and `(0, 0, 2)` in binary64, met by its own axis and by a line through its middle. -/
example : (∀ x ∈ lineSet 0 (vec3 0 0 1), ∀ z ∈ rims 0 (vec3 0 0 2) 1, 200 * (2⁻¹ ^ 53) * (‖(0 : E 3)‖ + ‖(0 : E 3)‖ + ‖vec3 0 0 2‖ + 1) < dist x z) ∧
    (lineSet 0 (vec3 0 0 1) ∩ capDisc 0 (vec3 0 0 2) 1 0).Nonempty ∧ (lineSet 0 (vec3 0 0 1) ∩ capDisc 0 (vec3 0 0 2) 1 1).Nonempty ∧
    √(1 - cosE (vec3 0 0 2) (vec3 1 0 0) ^ 2) = 1 ∧ IsLeast (lineDistances 0 (vec3 0 0 2) (vec3 (-2) 0 1) (vec3 1 0 0)) 0 ∧
    500 * (2⁻¹ ^ 53 / 1) * (dist (vec3 (-2) 0 1) 0 ^ 2 + (1 : ℝ) ^ 2) < |(1 : ℝ) ^ 2 - 0 ^ 2| ∧
    (∀ x ∈ lineSet (vec3 (-2) 0 1) (vec3 1 0 0), ∀ z ∈ rims 0 (vec3 0 0 2) 1,
      200 * 2⁻¹ ^ 53 * (‖(0 : E 3)‖ + ‖vec3 (-2) 0 1‖ + ‖vec3 0 0 2‖ + 1) +
        2 * (2⁻¹ ^ 53 * (2 * ‖vec3 (-2) 0 1‖ + 1100 * ((dist (vec3 (-2) 0 1) 0 ^ 2 + (1 : ℝ) ^ 2) / (1 ^ 2 * √(1 ^ 2 - 0 ^ 2))))) < dist x z) ∧
    (solidCyl 0 (vec3 0 0 2) 1 ∩ lineSet (vec3 (-2) 0 1) (vec3 1 0 0)).Nonempty := by
  have na : ‖vec3 0 0 2‖ = 2 := by rw [← sq_eq_sq₀ (norm_nonneg _) (by norm_num), norm_sq3]; simp [vec3]
  have nq2 : ‖vec3 (-2) 0 1‖ ^ 2 = 5 := by rw [norm_sq3]; simp [vec3]; norm_num
  have nq : ‖vec3 (-2) 0 1‖ ≤ 3 := by nlinarith [norm_nonneg (vec3 (-2) 0 1)]
  have rim : ∀ z ∈ rims 0 (vec3 0 0 2) 1, (z 2 = 0 ∨ z 2 = 2) ∧ z 0 ^ 2 + z 1 ^ 2 = 1 := by
    rintro z ⟨t, w, ht, hw, hn, rfl⟩
    have hw2 : w 2 = 0 := by simpa [inner3, vec3] using hw
    have hn2 : w 0 ^ 2 + w 1 ^ 2 + w 2 ^ 2 = 1 := by rw [← norm_sq3, hn]; norm_num
    rw [hw2] at hn2
    simp [vec3, hw2]
    exact ⟨ht, by linarith⟩
  have far : ∀ x z : E 3, 1 ≤ (x 0 - z 0) ^ 2 + (x 1 - z 1) ^ 2 + (x 2 - z 2) ^ 2 → 1 ≤ dist x z := by
    intro x z hxz
    rw [dist_eq_norm]
    refine abs_le_of_sq_le_sq' ?_ (norm_nonneg _) |>.2
    rw [norm_sq3]; simpa using hxz
  refine ⟨?_, ⟨0, ⟨0, by simp⟩, 0, by simp, by simp, by simp⟩, ⟨vec3 0 0 2, ⟨2, ?_⟩, 0, by simp, by simp, by simp⟩, ?_, ⟨⟨vec3 0 0 1, ⟨1 / 2, ?_⟩,
    vec3 0 0 1, ⟨2, ?_⟩, by simp⟩, ?_⟩, ?_, ?_, ⟨vec3 0 0 1, ⟨1 / 2, 0, by norm_num, by norm_num, by simp, by simp, ?_⟩, 2, ?_⟩⟩
  · rintro x ⟨t, rfl⟩ z hz
    obtain ⟨-, h2⟩ := rim z hz
    have := far (0 + t • vec3 0 0 1) z (by simp [vec3]; nlinarith [sq_nonneg (t - z 2)])
    rw [norm_zero, na]
    norm_num at this ⊢
    linarith
  · ext i; fin_cases i <;> simp [vec3]
  · simp [cosE, inner3, vec3]
  · ext i; fin_cases i <;> simp [vec3]
  · ext i; fin_cases i <;> simp [vec3]
  · rintro _ ⟨x, -, y, -, rfl⟩; exact dist_nonneg
  · rw [dist_zero_right, nq2]; norm_num
  · rintro x ⟨t, rfl⟩ z hz
    obtain ⟨h1, -⟩ := rim z hz
    have := far (vec3 (-2) 0 1 + t • vec3 1 0 0) z (by
      simp [vec3]
      rcases h1 with h1 | h1 <;> rw [h1] <;> nlinarith [sq_nonneg (-2 + t - z 0), sq_nonneg (z 1)])
    rw [norm_zero, na, dist_zero_right, nq2]
    refine lt_of_lt_of_le ?_ this
    norm_num
    linarith
  · ext i; fin_cases i <;> simp [vec3]
  · ext i; fin_cases i <;> simp [vec3]

end SkSpatial
