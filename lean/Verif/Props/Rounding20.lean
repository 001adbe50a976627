import Verif.Props.Rounding19
/-! # C112: intersections of lines with finite cylinders under rounding -/

namespace SkSpatial
open StdRounding

variable {u : ℝ} {fl : Arith}

/-! ## The control flow -/

section flow
variable {K : Type} [PyNum K]

theorem finite_both {C : Cylinder K} {L : Line K} {nd : Option Int} {b t : List K} (hc : Cylinder.intersectCaps C L = .ok (some b, some t)) :
    Cylinder.intersectFinite C L nd = .ok (b, t) := by
  simp [Cylinder.intersectFinite, hc]

theorem finite_error {C : Cylinder K} {L : Line K} {nd : Option Int} {ob ot : Option (List K)} (hc : Cylinder.intersectCaps C L = .ok (ob, ot))
    (ho : ob = none ∨ ot = none) {e : Err} (hi : Cylinder.intersectInfinite C L nd = .error e) :
    Cylinder.intersectFinite C L nd = .error e := by
  rcases ob with _ | b <;> rcases ot with _ | t <;> simp at ho <;>
    simp [Cylinder.intersectFinite, hc, hi, error_bind]

theorem finite_ok {C : Cylinder K} {L : Line K} {nd : Option Int} {ob ot : Option (List K)} (hc : Cylinder.intersectCaps C L = .ok (ob, ot))
    (ho : ob = none ∨ ot = none) {A B : List K} {bA bB : Bool} (hi : Cylinder.intersectInfinite C L nd = .ok (A, B))
    (hA : Cylinder.betweenCapPlanes C A = .ok bA) (hB : Cylinder.betweenCapPlanes C B = .ok bB) :
    Cylinder.intersectFinite C L nd = (match (if bA then some A else ob.or ot), (if bB then some B else ob.or ot) with
      | some a, some b => .ok (a, b)
      | _, _ => .error (.valueError "The line does not intersect the cylinder.")) := by
  rcases ob with _ | b <;> rcases ot with _ | t <;> simp at ho <;> cases bA <;> cases bB <;>
    simp [Cylinder.intersectFinite, hc, hi, hA, hB]

end flow

/-- The rounded point above the base. -/
theorem caps_rd (h : StdRounding u fl) (hu : u ≤ 1 / 10 ^ 5) {p a q d : E 3} (ha : a ≠ 0) (hd : d ≠ 0) {r Λ : ℝ} (hr : 0 < r)
    (hΛ : Λ = ‖p‖ + ‖q‖ + ‖a‖ + r) (hrim : ∀ x ∈ lineSet q d, ∀ z ∈ rims p a r, 200 * u * Λ < dist x z) :
    ∃ X X' Y Y' : Option (E 3), Cylinder.intersectCaps ⟨arr p, arr a, r⟩ ⟨arr q, arr d⟩ = .ok (X.map arr, X'.map arr) ∧
      @Cylinder.intersectCaps ℝ (rounded fl) ⟨arr p, arr a, r⟩ ⟨arr q, arr d⟩ = .ok (Y.map arr, Y'.map arr) ∧
      Option.Rel (fun x y => x ∈ lineSet q d ∧ x ∈ capDisc p a r 0 ∧ x ∉ infCyl p a r ∧ dist y x ≤ 40 * u * Λ / |cosE a d|) X Y ∧
      Option.Rel (fun x y => x ∈ lineSet q d ∧ x ∈ capDisc p a r 1 ∧ x ∉ infCyl p a r ∧ dist y x ≤ 40 * u * Λ / |cosE a d|) X' Y' ∧
      ((lineSet q d ∩ capDisc p a r 0).Nonempty → ∃ x, X = some x) ∧ ((lineSet q d ∩ capDisc p a r 1).Nonempty → ∃ x, X' = some x) := by
  have hu0 := h.nonneg
  have hu1 : u ≤ 1 / 100000 := by norm_num at hu ⊢; exact hu
  obtain ⟨c, hc, hci⟩ := vadd_rd (fl := fl) p a
  have hcn : ‖c - (p + (1 : ℝ) • a)‖ ≤ u * (‖p‖ + ‖a‖) := by
    rw [one_smul]
    have h1 : ‖c - (p + a)‖ ≤ u * ‖p + a‖ := by
      refine norm_le_of_coords hu0 fun i => ?_
      rw [PiLp.sub_apply, hci]
      exact h.err _
    exact h1.trans (mul_le_mul_of_nonneg_left (norm_add_le _ _) hu0)
  obtain ⟨X, Y, e1, e2, e3, e4⟩ := cap_pair h hu (c := p) (τ := 0) ha hd hr (Or.inl rfl) (by
    rw [zero_smul, add_zero, sub_self, norm_zero]; positivity) hΛ hrim
  obtain ⟨X', Y', f1, f2, f3, f4⟩ := cap_pair h hu (c := c) (τ := 1) ha hd hr (Or.inr rfl) hcn hΛ hrim
  rw [zero_smul, add_zero] at e1
  rw [one_smul] at f1
  have hz := C73_is_zero h (by linarith) a
  refine ⟨X, X', Y, Y', ?_, ?_, e3, f3, e4, f4⟩
  · simp [Cylinder.intersectCaps, Plane.new_arr _ ha, e1, f1]
  · simp [Cylinder.intersectCaps, Plane.new, newLinePlane, new1D_rd, hz, ha, hc, e2, f2]

/-- The points where a line meets an infinite cylinder, in the order of the direction of the line, are unique. -/
theorem ordered_pair3 {x x' z z' d : E 3} (hd : d ≠ 0) (hs : ({x, x'} : Set (E 3)) = {z, z'}) (hx : ∃ t : ℝ, 0 ≤ t ∧ x' = x + t • d)
    (hz : ∃ t : ℝ, 0 ≤ t ∧ z' = z + t • d) : x = z ∧ x' = z' := by
  rcases Set.pair_eq_pair_iff.mp hs with h | ⟨rfl, rfl⟩
  · exact h
  · obtain ⟨t, ht, h1⟩ := hx
    obtain ⟨k, hk, h2⟩ := hz
    have : (t + k) • d = 0 := by
      have : x = x + (k + t) • d := by conv_lhs => rw [h2, h1]
                                       module
      rw [add_comm]
      exact left_eq_add.mp this
    rcases smul_eq_zero.mp this with h0 | h0
    · have : t = 0 := by linarith
      subst this
      have : x' = x := by rw [h1, zero_smul, add_zero]
      exact ⟨this.symm, this⟩
    · exact absurd h0 hd

/-- Two directions with a non-zero sine are independent. -/
theorem sine_independent {a d : E 3} (ha : a ≠ 0) (hd : d ≠ 0) (hs : 0 < √(1 - cosE a d ^ 2)) : LinearIndependent ℝ ![a, d] := by
  by_contra hdep
  rw [LinearIndependent.pair_iff' ha, not_forall] at hdep
  obtain ⟨t, ht⟩ := hdep
  rw [not_not] at ht
  have h0 : ‖a‖ ≠ 0 := norm_ne_zero_iff.mpr ha
  have ht0 : t ≠ 0 := fun h => hd (by rw [← ht, h, zero_smul])
  have : cosE a d ^ 2 = 1 := by
    rw [cosE, ← ht, real_inner_smul_right, real_inner_self_eq_norm_sq, norm_smul, Real.norm_eq_abs, div_pow, mul_pow, mul_pow, mul_pow,
      sq_abs]
    field_simp
  rw [this, sub_self, Real.sqrt_zero] at hs
  linarith

/-- **C112** A line that meets both caps of a cylinder, away from the rims: the two points are returned, whatever `n_digits` is. -/
theorem C112_through_caps (h : StdRounding u fl) (hu : u ≤ 1 / 10 ^ 5) {p a q d : E 3} {r : ℝ} {C : Cylinder ℝ} {L : Line ℝ}
    (hC : @Cylinder.new ℝ (rounded fl) (arr p) (arr a) r = .ok C) (hL : @Line.new ℝ (rounded fl) (arr q) (arr d) = .ok L)
    (hrim : ∀ x ∈ lineSet q d, ∀ z ∈ rims p a r, 200 * u * (‖p‖ + ‖q‖ + ‖a‖ + r) < dist x z)
    (hb : (lineSet q d ∩ capDisc p a r 0).Nonempty) (ht : (lineSet q d ∩ capDisc p a r 1).Nonempty) (nd : Option Int) :
    ∃ x x' y y' : E 3, x ∈ lineSet q d ∩ capDisc p a r 0 ∧ x' ∈ lineSet q d ∩ capDisc p a r 1 ∧ solidCyl p a r ∩ lineSet q d = segment ℝ x x' ∧
      @Cylinder.intersectLine ℝ (rounded fl) C L nd false = .ok (arr y, arr y') ∧
      dist y x ≤ 40 * u * (‖p‖ + ‖q‖ + ‖a‖ + r) / |cosE a d| ∧ dist y' x' ≤ 40 * u * (‖p‖ + ‖q‖ + ‖a‖ + r) / |cosE a d| := by
  have hu1 : u ≤ 1 / 100000 := by norm_num at hu ⊢; exact hu
  obtain ⟨ha, hr, rfl⟩ := cylinder_new_rd h (by linarith) hC
  obtain ⟨hd, rfl⟩ := line_new_rd h (by linarith) hL
  obtain ⟨X, X', Y, Y', e1, e2, e3, e4, e5, e6⟩ := caps_rd h hu (q := q) ha hd hr rfl hrim
  obtain ⟨x, rfl⟩ := e5 hb
  obtain ⟨x', rfl⟩ := e6 ht
  cases e3 with | some r1 => ?_
  cases e4 with | some r2 => ?_
  rename_i y y'
  have hex := finite_both (nd := none) e1
  have hint : Cylinder.intersectLine ⟨arr p, arr a, r⟩ ⟨arr q, arr d⟩ none false =
      Cylinder.intersectFinite ⟨arr p, arr a, r⟩ ⟨arr q, arr d⟩ none := by
    simp [Cylinder.intersectLine, Line.dimension]
  have h52 := C52_finite_cylinder (Cylinder.new_arr p ha hr) (Line.new_arr q hd) (nd := none) (Or.inl rfl)
  rw [hint, hex] at h52
  have hne : (solidCyl p a r ∩ lineSet q d).Nonempty := by
    rw [Set.nonempty_iff_ne_empty]; intro h0
    obtain ⟨msg, hm⟩ := h52.1 h0
    cases hm
  obtain ⟨z, z', hz, hseg⟩ := h52.2 hne
  simp only [Except.ok.injEq, Prod.mk.injEq, arr_inj] at hz
  rw [← hz.1, ← hz.2] at hseg
  refine ⟨x, x', y, y', ⟨r1.1, r1.2.1⟩, ⟨r2.1, r2.2.1⟩, hseg, ?_, r1.2.2.2, r2.2.2.2⟩
  have := @finite_both ℝ (rounded fl) _ _ nd _ _ e2
  rw [← this]
  simp [Cylinder.intersectLine, Line.dimension]

set_option maxHeartbeats 1000000 in
/-- **C112** `cylinder.intersect_line(line, infinite=False)` under rounding. `H` is the distance of the line from the axis, `s` the sine of the
angle between them. If the line stays away from the rims and does not graze the lateral surface, the method raises exactly when the line misses
the cylinder and otherwise returns the end points of the part of the line in the cylinder. -/
theorem C112_finite_cylinder (h : StdRounding u fl) {p a q d : E 3} {r : ℝ} {C : Cylinder ℝ} {L : Line ℝ}
    (hC : @Cylinder.new ℝ (rounded fl) (arr p) (arr a) r = .ok C) (hL : @Line.new ℝ (rounded fl) (arr q) (arr d) = .ok L)
    {s H Λ ε : ℝ} (hse : s = √(1 - cosE a d ^ 2)) (hs : 0 < s) (hus : 10 ^ 5 * u ≤ s) (hH : IsLeast (lineDistances p a q d) H)
    {nd : Option Int} (hnd : nd = none ∨ nd = some 0) (hgap : 500 * (u / s) * (dist q p ^ 2 + r ^ 2) < |r ^ 2 - H ^ 2|)
    (hΛ : Λ = ‖p‖ + ‖q‖ + ‖a‖ + r) (hε : ε = u * (2 * ‖q‖ + 1100 * ((dist q p ^ 2 + r ^ 2) / (s ^ 2 * √(r ^ 2 - H ^ 2)))))
    (hrim : ∀ x ∈ lineSet q d, ∀ z ∈ rims p a r, 200 * u * Λ + 2 * ε < dist x z) :
    (solidCyl p a r ∩ lineSet q d = ∅ → ∃ msg, @Cylinder.intersectLine ℝ (rounded fl) C L nd false = .error (.valueError msg)) ∧
    ((solidCyl p a r ∩ lineSet q d).Nonempty → ∃ x x' y y' : E 3, solidCyl p a r ∩ lineSet q d = segment ℝ x x' ∧
      @Cylinder.intersectLine ℝ (rounded fl) C L nd false = .ok (arr y, arr y') ∧
      (x ∈ infCyl p a r → dist y x ≤ ε) ∧ (x ∉ infCyl p a r → dist y x ≤ 40 * u * Λ / |cosE a d|) ∧
      (x' ∈ infCyl p a r → dist y' x' ≤ ε) ∧ (x' ∉ infCyl p a r → dist y' x' ≤ 40 * u * Λ / |cosE a d|)) := by
  classical
  have hu0 := h.nonneg
  have hs1 : s ≤ 1 := by rw [hse, Real.sqrt_le_one]; linarith [sq_nonneg (cosE a d)]
  have hu : u ≤ 1 / 10 ^ 5 := by rw [le_div_iff₀ (by positivity)]; linarith
  have hu1 : u ≤ 1 / 100000 := by norm_num at hu ⊢; exact hu
  have hinf := C111_infinite_cylinder h hC hL hse hs hus hH hnd
  obtain ⟨ha, hr, rfl⟩ := cylinder_new_rd h (by linarith) hC
  obtain ⟨hd, rfl⟩ := line_new_rd h (by linarith) hL
  have hε0 : 0 ≤ ε := by rw [hε]; positivity
  have hΛ0 : 0 ≤ Λ := by rw [hΛ]; positivity
  have hli : LinearIndependent ℝ ![a, d] := sine_independent ha hd (hse ▸ hs)
  obtain ⟨X, X', Y, Y', e1, e2, e3, e4, -, -⟩ := caps_rd h hu (q := q) ha hd hr hΛ (fun x hx z hz => by linarith [hrim x hx z hz])
  have hintE : Cylinder.intersectLine ⟨arr p, arr a, r⟩ ⟨arr q, arr d⟩ nd false = Cylinder.intersectFinite ⟨arr p, arr a, r⟩ ⟨arr q, arr d⟩ nd := by
    simp [Cylinder.intersectLine, Line.dimension]
  have hintR : @Cylinder.intersectLine ℝ (rounded fl) ⟨arr p, arr a, r⟩ ⟨arr q, arr d⟩ nd false =
      @Cylinder.intersectFinite ℝ (rounded fl) ⟨arr p, arr a, r⟩ ⟨arr q, arr d⟩ nd := by
    simp [Cylinder.intersectLine, Line.dimension]
  have hinfE : Cylinder.intersectLine ⟨arr p, arr a, r⟩ ⟨arr q, arr d⟩ nd true = Cylinder.intersectInfinite ⟨arr p, arr a, r⟩ ⟨arr q, arr d⟩ nd := by
    simp [Cylinder.intersectLine, Line.dimension]
  have hinfR : @Cylinder.intersectLine ℝ (rounded fl) ⟨arr p, arr a, r⟩ ⟨arr q, arr d⟩ nd true =
      @Cylinder.intersectInfinite ℝ (rounded fl) ⟨arr p, arr a, r⟩ ⟨arr q, arr d⟩ nd := by
    simp [Cylinder.intersectLine, Line.dimension]
  rw [hintR]
  have h52 := C52_finite_cylinder (Cylinder.new_arr p ha hr) (Line.new_arr q hd) hnd
  have h51 := C51_infinite_cylinder (Cylinder.new_arr p ha hr) (Line.new_arr q hd) hnd
  rw [hintE] at h52
  rw [hinfE] at h51
  rw [hinfR] at hinf
  let R : E 3 → E 3 → Prop := fun x y => (x ∈ infCyl p a r → dist y x ≤ ε) ∧ (x ∉ infCyl p a r → dist y x ≤ 40 * u * Λ / |cosE a d|)
  have hR3 : Option.Rel R X Y := by
    cases e3 with
    | none => exact .none
    | some k => exact .some ⟨fun hc => absurd hc k.2.2.1, fun _ => k.2.2.2⟩
  have hR4 : Option.Rel R X' Y' := by
    cases e4 with
    | none => exact .none
    | some k => exact .some ⟨fun hc => absurd hc k.2.2.1, fun _ => k.2.2.2⟩
  clear e3 e4
  -- the exact and the rounded run correspond
  have main : (∃ msg msg', Cylinder.intersectFinite ⟨arr p, arr a, r⟩ ⟨arr q, arr d⟩ nd = .error (.valueError msg) ∧
      @Cylinder.intersectFinite ℝ (rounded fl) ⟨arr p, arr a, r⟩ ⟨arr q, arr d⟩ nd = .error (.valueError msg')) ∨
      ∃ x x' y y', Cylinder.intersectFinite ⟨arr p, arr a, r⟩ ⟨arr q, arr d⟩ nd = .ok (arr x, arr x') ∧
        @Cylinder.intersectFinite ℝ (rounded fl) ⟨arr p, arr a, r⟩ ⟨arr q, arr d⟩ nd = .ok (arr y, arr y') ∧ R x y ∧ R x' y' := by
    by_cases hboth : ∃ x x', X = some x ∧ X' = some x'
    · obtain ⟨x, x', rfl, rfl⟩ := hboth
      cases hR3 with | some k3 => ?_
      cases hR4 with | some k4 => ?_
      exact Or.inr ⟨_, _, _, _, finite_both e1, @finite_both ℝ (rounded fl) _ _ _ _ _ e2, k3, k4⟩
    · have hoX : X.map arr = none ∨ X'.map arr = none := by
        rcases X with _ | x
        · exact Or.inl rfl
        · rcases X' with _ | x'
          · exact Or.inr rfl
          · exact absurd ⟨_, _, rfl, rfl⟩ hboth
      have hoY : Y.map arr = none ∨ Y'.map arr = none := by
        cases hR3 with
        | none => exact Or.inl rfl
        | some _ => cases hR4 with
          | none => exact Or.inr rfl
          | some _ => simp at hoX
      rcases le_total (r ^ 2) (H ^ 2) with hrH | hrH
      · rw [abs_of_nonpos (by linarith)] at hgap
        have hmiss := hinf.1 (by linarith)
        have hH0 : 0 ≤ H := by
          obtain ⟨⟨x, -, y, -, hxy⟩, -⟩ := hH
          rw [hxy]; exact dist_nonneg
        have hrH' : r < H := by
          have h0 : 0 ≤ 500 * (u / s) * (dist q p ^ 2 + r ^ 2) := by positivity
          exact lt_of_pow_lt_pow_left₀ 2 hH0 (by linarith)
        obtain ⟨msg, hm⟩ := h51.2.1 (by
          rw [Set.eq_empty_iff_forall_notMem]
          rintro x ⟨h1, h2⟩
          rw [infCyl_iff ha hr, infDist_lineSet p ha] at h1
          have := hH.2 ⟨footE p a x, footE_mem p a x, x, h2, rfl⟩
          rw [dist_comm] at this
          linarith)
        exact Or.inl ⟨_, _, finite_error e1 hoX hm, @finite_error ℝ (rounded fl) _ _ _ _ _ e2 hoY _ hmiss⟩
      · rw [abs_of_nonneg (by linarith)] at hgap
        obtain ⟨y, y', x, x', hy, hset, hord, d1, d2⟩ := hinf.2.1 (by linarith)
        rw [← hε] at d1 d2
        obtain ⟨z, z', hz, hset', hord'⟩ := h51.2.2 hli (by rw [hset]; exact ⟨x, Set.mem_insert _ _⟩)
        obtain ⟨rfl, rfl⟩ := ordered_pair3 hd (hset.symm.trans hset') hord hord'
        have hbet : ∀ x y : E 3, x ∈ infCyl p a r ∩ lineSet q d → dist y x ≤ ε →
            @Cylinder.betweenCapPlanes ℝ (rounded fl) ⟨arr p, arr a, r⟩ (arr y) = .ok (decide (0 ≤ psignedE p a x ∧ psignedE p a x ≤ ‖a‖)) := by
          intro x y hx hxy
          have hperp : ‖perpE (‖a‖⁻¹ • a) (x - p)‖ = r := by
            have := (mem_infCyl ha hr).mp hx.1
            rwa [rad2_perp ha, sq_eq_sq₀ (norm_nonneg _) hr.le] at this
          refine between_rd h hu ha hr hperp hxy (ζ := 200 * u * Λ + 2 * ε) ?_ ?_ ?_
          · have h1 : ‖a‖ + r ≤ Λ := by rw [hΛ]; linarith [norm_nonneg p, norm_nonneg q]
            have := mul_le_mul_of_nonneg_left h1 hu0
            have : 0 ≤ u * Λ := by positivity
            linarith
          · obtain ⟨z, hz, hdz⟩ := rim_near (p := p) ha hr (Or.inl rfl) x
            rw [hperp, sub_self, abs_zero, add_zero, zero_mul, sub_zero] at hdz
            exact (hrim x hx.2 z hz).trans_le hdz
          · obtain ⟨z, hz, hdz⟩ := rim_near (p := p) ha hr (Or.inr rfl) x
            rw [hperp, sub_self, abs_zero, add_zero, one_mul] at hdz
            exact (hrim x hx.2 z hz).trans_le hdz
        have mx : x ∈ infCyl p a r ∩ lineSet q d := by rw [hset]; exact Set.mem_insert _ _
        have mx' : x' ∈ infCyl p a r ∩ lineSet q d := by rw [hset]; exact Set.mem_insert_of_mem _ rfl
        have fE := finite_ok e1 hoX hz (Cylinder.betweenCapPlanes_arr p ha r x) (Cylinder.betweenCapPlanes_arr p ha r x')
        have fR := @finite_ok ℝ (rounded fl) _ _ _ _ _ e2 hoY _ _ _ _ hy (hbet x y mx d1) (hbet x' y' mx' d2)
        have hor : Option.Rel R (X.or X') (Y.or Y') := by
          cases hR3 with
          | none => exact hR4
          | some k => exact .some k
        have sel : ∀ (b : Bool) (x y : E 3), x ∈ infCyl p a r ∩ lineSet q d → dist y x ≤ ε →
            ∃ S T : Option (E 3), (if b then some (arr x) else (X.map arr).or (X'.map arr)) = S.map arr ∧
              (if b then some (arr y) else (Y.map arr).or (Y'.map arr)) = T.map arr ∧ Option.Rel R S T := by
          intro b x y hx hxy
          cases b
          · exact ⟨X.or X', Y.or Y', by rcases X with _ | _ <;> simp, by rcases Y with _ | _ <;> simp, hor⟩
          · exact ⟨some x, some y, rfl, rfl, .some ⟨fun _ => hxy, fun hc => absurd hx.1 hc⟩⟩
        obtain ⟨S, T, s1, s2, s3⟩ := sel (decide (0 ≤ psignedE p a x ∧ psignedE p a x ≤ ‖a‖)) x y mx d1
        obtain ⟨S', T', s1', s2', s3'⟩ := sel (decide (0 ≤ psignedE p a x' ∧ psignedE p a x' ≤ ‖a‖)) x' y' mx' d2
        rw [s1, s1'] at fE
        rw [s2, s2'] at fR
        cases s3 with
        | none => exact Or.inl ⟨_, _, fE, fR⟩
        | some k => cases s3' with
          | none => exact Or.inl ⟨_, _, fE, fR⟩
          | some k' => exact Or.inr ⟨_, _, _, _, fE, fR, k, k'⟩
  constructor
  · intro hem
    obtain ⟨msg, hm⟩ := h52.1 hem
    rcases main with ⟨_, m', -, hm'⟩ | ⟨x, x', y, y', hx, -⟩
    · exact ⟨m', hm'⟩
    · rw [hm] at hx; cases hx
  · intro hne
    obtain ⟨z, z', hz, hseg⟩ := h52.2 hne
    rcases main with ⟨_, m', hm, -⟩ | ⟨x, x', y, y', hx, hy, k1, k2⟩
    · rw [hz] at hm; cases hm
    · rw [hz] at hx
      simp only [Except.ok.injEq, Prod.mk.injEq, arr_inj] at hx
      rw [hx.1, hx.2] at hseg
      exact ⟨x, x', y, y', hseg, hy, k1.1, k1.2, k2.1, k2.2⟩

end SkSpatial
