import Verif.Props.Cylinder
import Verif.Props.Circle2
import Verif.Props.Vector2
/-! # C54: `Cylinder.to_mesh` and `to_points` -/

namespace SkSpatial

theorem linspace_bounds {a b : ℝ} (hab : a ≤ b) {k : ℕ} {x : ℝ} (hx : x ∈ linspace a b k) : a ≤ x ∧ x ≤ b := by
  rcases k with _ | _ | k
  · simp [linspace] at hx
  · simp [linspace] at hx; subst hx; exact ⟨le_refl _, hab⟩
  · rw [linspace, List.mem_map] at hx
    obtain ⟨i, hi, rfl⟩ := hx
    rw [List.mem_range] at hi
    have h1 : (i : ℝ) ≤ k + 1 := by exact_mod_cast Nat.lt_succ_iff.mp hi
    simp
    have hk : (0 : ℝ) < k + 1 := by positivity
    have h2 : 0 ≤ (b - a) / ((k : ℝ) + 1) := div_nonneg (by linarith) hk.le
    have h3 : ((k : ℝ) + 1) * ((b - a) / (k + 1)) = b - a := by field_simp
    split_ifs
    · exact ⟨hab, le_refl _⟩
    · constructor <;> nlinarith

/-- C54: the mesh points are `p + t u + r sin θ u₁ + r cos θ u₂` for an orthonormal frame `u` (the axis), `u₁`,
`u₂`, with `t` over `n_along_axis` values in `[0, length]` and `θ` over `n_angles` values in `[0, 2π]`, both
ends included; so they lie on the lateral surface, and (from two values on) on both rims.  `to_mesh` never
raises; `to_points` raises `ValueError` only for an empty mesh. -/
theorem C54_mesh {p a : E 3} {r : ℝ} {C : Cylinder ℝ} (h : Cylinder.new (arr p) (arr a) r = .ok C) (k m : ℕ) :
    ∃ (Q : List (E 3)) (u u₁ u₂ : E 3) (ts θs : List ℝ),
      a = ‖a‖ • u ∧ Orthonormal ℝ ![u, u₁, u₂] ∧ ts.length = k ∧ θs.length = m ∧
      (∀ t ∈ ts, 0 ≤ t ∧ t ≤ ‖a‖) ∧ (∀ θ ∈ θs, 0 ≤ θ ∧ θ ≤ 2 * Real.pi) ∧
      Q = (θs.flatMap fun θ => ts.map fun t => p + t • u + (r * Real.sin θ) • u₁ + (r * Real.cos θ) • u₂) ∧
      (∀ x ∈ Q, x ∈ latCyl p a r) ∧
      (1 ≤ k → 1 ≤ m → C.toPoints k m = .ok (rows Q)) ∧
      (k = 0 ∨ m = 0 → ∃ msg, C.toPoints k m = .error (.valueError msg)) ∧
      (1 ≤ k → (0 : ℝ) ∈ ts) ∧ (2 ≤ k → ‖a‖ ∈ ts) ∧ (1 ≤ m → (0 : ℝ) ∈ θs) ∧ (2 ≤ m → 2 * Real.pi ∈ θs) ∧
      (2 ≤ k → 1 ≤ m → (∃ x ∈ Q, ∃ w, inner ℝ w a = (0 : ℝ) ∧ ‖w‖ = r ∧ x = p + w) ∧
        ∃ x ∈ Q, ∃ w, inner ℝ w a = (0 : ℝ) ∧ ‖w‖ = r ∧ x = p + a + w) ∧
      (∃ X Y Z, C.toMesh k m = .ok (X, Y, Z) ∧ X.length = m ∧ Y.length = m ∧ Z.length = m ∧
        (∀ row, row ∈ X ∨ row ∈ Y ∨ row ∈ Z → row.length = k) ∧ meshToPoints X Y Z = rows Q) := by
  obtain ⟨ha, hr, rfl⟩ := Cylinder.new_ok h
  have hn : 0 < ‖a‖ := norm_pos_iff.mpr ha
  obtain ⟨u, hu⟩ : ∃ u, u = ‖a‖⁻¹ • a := ⟨_, rfl⟩
  have hau : a = ‖a‖ • u := by rw [hu, smul_smul, mul_inv_cancel₀ hn.ne', one_smul]
  have hun : ‖u‖ = 1 := by rw [hu, norm_smul, norm_inv, norm_norm, inv_mul_cancel₀ hn.ne']
  have hu0 : u ≠ 0 := by rw [← norm_ne_zero_iff, hun]; exact one_ne_zero
  have e0 : Vec.unit (arr a) = .ok (arr u) := by rw [hu, unit_arr ha]
  obtain ⟨i, e1, -, hli⟩ := C17_different_direction (n := 3) (by norm_num) hu0
  obtain ⟨v, hv⟩ : ∃ v, v = crossE u (EuclideanSpace.single i 1) := ⟨_, rfl⟩
  have hv0 : v ≠ 0 := by
    rw [hv, Ne, crossE_eq_zero_iff, not_not]; exact hli
  obtain ⟨u1, hu1⟩ : ∃ u1, u1 = ‖v‖⁻¹ • v := ⟨_, rfl⟩
  have hvn : 0 < ‖v‖ := norm_pos_iff.mpr hv0
  have e2 : Vec.unit (arr v) = .ok (arr u1) := by rw [hu1, unit_arr hv0]
  have h1n : ‖u1‖ = 1 := by rw [hu1, norm_smul, norm_inv, norm_norm, inv_mul_cancel₀ hvn.ne']
  have h01 : inner ℝ u1 u = (0 : ℝ) := by
    rw [hu1, real_inner_smul_left, hv, crossE_inner_left, mul_zero]
  obtain ⟨u2, hu2⟩ : ∃ u2, u2 = crossE u u1 := ⟨_, rfl⟩
  have h2n : ‖u2‖ = 1 := by
    have := crossE_norm_sq u u1
    rw [real_inner_comm, h01, hun, h1n, ← hu2] at this
    have h : ‖u2‖ ^ 2 = 1 := by linarith
    exact (pow_eq_one_iff_of_nonneg (norm_nonneg u2) two_ne_zero).mp h
  have hu20 : u2 ≠ 0 := by rw [← norm_ne_zero_iff, h2n]; exact one_ne_zero
  have e3 : Vec.unit (arr u2) = .ok (arr u2) := by rw [unit_arr hu20, h2n, inv_one, one_smul]
  have h02 : inner ℝ u2 u = (0 : ℝ) := by rw [hu2]; exact crossE_inner_left _ _
  have h12 : inner ℝ u2 u1 = (0 : ℝ) := by rw [hu2]; exact crossE_inner_right _ _
  obtain ⟨ts, hts⟩ : ∃ ts, ts = linspace (0 : ℝ) ‖a‖ k := ⟨_, rfl⟩
  obtain ⟨θs, hθs⟩ : ∃ θs, θs = linspace (0 : ℝ) (2 * Real.pi) m := ⟨_, rfl⟩
  have hlt : ts.length = k := by rw [hts]; exact length_linspace _ _ _
  have hlθ : θs.length = m := by rw [hθs]; exact length_linspace _ _ _
  let F : ℝ → ℝ → E 3 := fun θ t => p + t • u + (r * Real.sin θ) • u1 + (r * Real.cos θ) • u2
  have hmesh : Cylinder.toMesh ⟨arr p, arr a, r⟩ k m = .ok
      (θs.map fun θ => ts.map fun t => F θ t 0, θs.map fun θ => ts.map fun t => F θ t 1,
       θs.map fun θ => ts.map fun t => F θ t 2) := by
    unfold Cylinder.toMesh
    simp only [e0, ok_bind, wrapped_real, e1, cross_arr3, ← hv, e2, ← hu2, e3, pure_ok]
    have hl : Cylinder.length ⟨arr p, arr a, r⟩ = ‖a‖ := by simp [Cylinder.length]
    rw [hl]
    simp [arr3, hts, hθs, F, mul_comm]
  have hpts : meshToPoints (θs.map fun θ => ts.map fun t => F θ t 0) (θs.map fun θ => ts.map fun t => F θ t 1)
      (θs.map fun θ => ts.map fun t => F θ t 2) = rows (θs.flatMap fun θ => ts.map fun t => F θ t) := by
    apply mesh_grid2
    intro a b
    simp [arr3]
  have hw : ∀ θ, inner ℝ ((r * Real.sin θ) • u1 + (r * Real.cos θ) • u2) a = (0 : ℝ) ∧
      ‖(r * Real.sin θ) • u1 + (r * Real.cos θ) • u2‖ = r := by
    intro θ
    constructor
    · rw [hau, real_inner_smul_right, inner_add_left, real_inner_smul_left, real_inner_smul_left, h01, h02]; simp
    · have : ‖(r * Real.sin θ) • u1 + (r * Real.cos θ) • u2‖ ^ 2 = r ^ 2 := by
        rw [norm_add_sq_real, norm_smul, norm_smul, real_inner_smul_left, real_inner_smul_right, real_inner_comm,
          h12, h1n, h2n, Real.norm_eq_abs, Real.norm_eq_abs, mul_one, mul_one, sq_abs, sq_abs]
        linear_combination r ^ 2 * Real.sin_sq_add_cos_sq θ
      exact (pow_left_inj₀ (norm_nonneg _) hr.le two_ne_zero).mp this
  have hF : ∀ θ t, F θ t = p + t • u + ((r * Real.sin θ) • u1 + (r * Real.cos θ) • u2) := fun θ t => add_assoc _ _ _
  have htb : ∀ t ∈ ts, 0 ≤ t ∧ t ≤ ‖a‖ := fun t ht => linspace_bounds hn.le (hts ▸ ht)
  have hlen : (θs.flatMap fun θ => ts.map fun t => F θ t).length = m * k := by
    rw [List.length_flatMap]; simp [hlt, hlθ]
  have ht0 : 1 ≤ k → (0 : ℝ) ∈ ts := fun hk => hts ▸ linspace_zero_mem hk
  have ht1 : 2 ≤ k → ‖a‖ ∈ ts := fun hk => hts ▸ linspace_last_mem hk
  have hθ0 : 1 ≤ m → (0 : ℝ) ∈ θs := fun hk => hθs ▸ linspace_zero_mem hk
  refine ⟨_, u, u1, u2, ts, θs, hau, ?_, hlt, hlθ, htb,
    fun θ hθ => linspace_bounds (by positivity) (hθs ▸ hθ), rfl, ?_, ?_, ?_, ht0, ht1, hθ0,
    fun hk => hθs ▸ linspace_last_mem hk, ?_, _, _, _, hmesh, ?_, ?_, ?_, ?_, hpts⟩
  · rw [orthonormal_iff_ite]
    intro i j
    fin_cases i <;> fin_cases j <;>
      simp [real_inner_self_eq_norm_sq, hun, h1n, h2n, h01, h02, h12, real_inner_comm u u1, real_inner_comm u u2,
        real_inner_comm u1 u2]
    all_goals first | (rw [real_inner_comm]; assumption) | assumption
  · intro x hx
    obtain ⟨θ, -, hx⟩ := List.mem_flatMap.mp hx
    obtain ⟨t, ht, rfl⟩ := List.mem_map.mp hx
    obtain ⟨b1, b2⟩ := htb t ht
    refine ⟨t / ‖a‖, _, by positivity, (div_le_one hn).mpr b2, (hw θ).1, (hw θ).2, ?_⟩
    rw [add_assoc (p + t • u)]
    congr 2
    conv_rhs => rw [hau]
    rw [smul_smul, norm_smul, hun, mul_one, norm_norm, div_mul_cancel₀ _ hn.ne']
  · intro hk hm
    simp only [Cylinder.toPoints, hmesh, ok_bind, hpts]
    apply newPoints_rows
    intro h
    change (θs.flatMap fun θ => ts.map fun t => F θ t) = [] at h
    rw [h] at hlen
    have : 0 < m * k := by positivity
    simp at hlen; omega
  · intro hkm
    have : (θs.flatMap fun θ => ts.map fun t => F θ t) = [] := by
      apply List.eq_nil_of_length_eq_zero
      rw [hlen]; rcases hkm with rfl | rfl <;> simp
    simp only [Cylinder.toPoints, hmesh, ok_bind, hpts, this]
    exact ⟨_, rfl⟩
  · intro hk hm
    constructor
    · refine ⟨F 0 0, List.mem_flatMap.mpr ⟨0, hθ0 hm, List.mem_map.mpr ⟨0, ht0 (by omega), rfl⟩⟩, _, (hw 0).1, (hw 0).2, ?_⟩
      rw [hF, zero_smul, add_zero]
    · refine ⟨F 0 ‖a‖, List.mem_flatMap.mpr ⟨0, hθ0 hm, List.mem_map.mpr ⟨_, ht1 hk, rfl⟩⟩, _, (hw 0).1, (hw 0).2, ?_⟩
      rw [hF, ← hau]
  · simp [hlθ]
  · simp [hlθ]
  · simp [hlθ]
  · rintro row (h | h | h) <;> obtain ⟨a, -, rfl⟩ := List.mem_map.mp h <;> simp [hlt]

end SkSpatial
