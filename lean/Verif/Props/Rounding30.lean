import Verif.Spec.Mesh
import Verif.Props.Rounding25
import Verif.Props.Rounding28
import Verif.Props.CylinderMesh
import Verif.Props.Rounding14
import Verif.Props.BestFitRounded2
import Mathlib.Analysis.Real.Pi.Bounds
/-! # C120: the meshes of planes, spheres and cylinders under rounding -/

namespace SkSpatial
open StdRounding

variable {u : ℝ} {fl : Arith} {n : ℕ}

theorem sin_rd (x : ℝ) : @PyNum.sin ℝ (rounded fl) x = fl (Real.sin x) := rfl
theorem cos_rd (x : ℝ) : @PyNum.cos ℝ (rounded fl) x = fl (Real.cos x) := rfl
theorem pi_rd : @PyNum.pi ℝ (rounded fl) = fl Real.pi := rfl

theorem length_evenSteps (L : ℝ) (k : ℕ) : (evenSteps L k).length = k := by simp [evenSteps]

theorem evenSteps_bounds {L : ℝ} (hL : 0 ≤ L) {k : ℕ} {x : ℝ} (hx : x ∈ evenSteps L k) : 0 ≤ x ∧ x ≤ L := by
  rw [evenSteps, List.mem_map] at hx
  obtain ⟨i, hi, rfl⟩ := hx
  rw [List.mem_range] at hi
  have h1 : (i : ℝ) ≤ (k : ℝ) - 1 := by
    have : (i : ℝ) + 1 ≤ k := by exact_mod_cast hi
    linarith
  have h2 : (0 : ℝ) ≤ (k : ℝ) - 1 := le_trans (Nat.cast_nonneg i) h1
  refine ⟨div_nonneg (mul_nonneg (Nat.cast_nonneg i) hL) h2, ?_⟩
  exact div_le_of_le_mul₀ h2 hL (by nlinarith)

theorem forall₂_and_mem {α β : Type} {R : α → β → Prop} {p : β → Prop} {l : List α} {m : List β} (h : List.Forall₂ R l m)
    (hp : ∀ x ∈ m, p x) : List.Forall₂ (fun a b => R a b ∧ p b) l m := by
  induction h with
  | nil => exact .nil
  | cons h0 _ ih => exact .cons ⟨h0, hp _ (by simp)⟩ (ih fun x hx => hp x (by simp [hx]))

/-- `np.linspace(0, stop, k)` under rounding. -/
theorem linspace_rd (h : StdRounding u fl) {j L' L : ℝ} (hj : 0 ≤ j) (hL : RP (eps u) j L' L) (k : ℕ) :
    List.Forall₂ (RP (eps u) (j + 4)) (@linspace ℝ (rounded fl) (@zero ℝ (rounded fl)) L' k) (evenSteps L k) := by
  have hε := h.eps_nonneg
  rcases k with _ | _ | k
  · simp [linspace, evenSteps]
  · simp only [linspace, evenSteps, zero_add, List.range_one, List.map_cons, List.map_nil, zero_rd, Nat.cast_zero, zero_mul, zero_div]
    exact List.Forall₂.cons ((RP.refl _ _).mono hε (by linarith)) List.Forall₂.nil
  · simp only [linspace, evenSteps]
    rw [List.forall₂_map_left_iff, List.forall₂_map_right_iff, List.forall₂_same]
    intro i hi
    have hk : ((k + 2 : ℕ) : ℝ) - 1 = ((k + 1 : ℕ) : ℝ) := by push_cast; ring
    have hk0 : ((k + 1 : ℕ) : ℝ) ≠ 0 := by positivity
    rw [hk]
    split_ifs with hi1
    · rw [hi1, mul_comm, mul_div_assoc, div_self hk0, mul_one]
      exact hL.mono hε (by linarith)
    · simp only [add_rd, mul_rd, sub_rd, div_rd, ofInt_rd, zero_rd, sub_zero, zero_add]
      have h1 := h.step ((h.step hL).div (RP.refl (eps u) ((k : ℝ) + 1)))
      have h2 := h.step (h.step ((RP.refl (eps u) (i : ℝ)).mul h1))
      have e : (0 : ℝ) + (j + 1 + 0 + 1) + 1 + 1 = j + 4 := by ring
      rw [e] at h2
      push_cast
      rw [mul_div_assoc]
      exact h2

theorem forall₂_grid {α β γ α' β' γ' : Type} {R : α → α' → Prop} {S : β → β' → Prop} {T : γ → γ' → Prop} {F : α → β → γ}
    {F' : α' → β' → γ'} {as : List α} {as' : List α'} {bs : List β} {bs' : List β'} (ha : List.Forall₂ R as as')
    (hb : List.Forall₂ S bs bs') (hF : ∀ a a' b b', R a a' → S b b' → T (F a b) (F' a' b')) :
    List.Forall₂ T (as.flatMap fun a => bs.map fun b => F a b) (as'.flatMap fun a => bs'.map fun b => F' a b) := by
  induction ha with
  | nil => simp
  | cons h0 _ ih =>
    simp only [List.flatMap_cons]
    refine List.rel_append ?_ ih
    rw [List.forall₂_map_left_iff, List.forall₂_map_right_iff]
    exact hb.imp fun b b' => hF _ _ _ _ h0

/-- Turning a point of the unit sphere. -/
theorem sphere_turn (a a' b b' : ℝ) :
    ‖vec3 (Real.sin a * Real.sin b) (Real.sin a * Real.cos b) (Real.cos a) -
      vec3 (Real.sin a' * Real.sin b') (Real.sin a' * Real.cos b') (Real.cos a')‖ ≤ |a - a'| + |b - b'| := by
  have key : ∀ x y : ℝ, (Real.sin x - Real.sin y) ^ 2 + (Real.cos x - Real.cos y) ^ 2 ≤ |x - y| ^ 2 := by
    intro x y
    have h1 := Real.one_sub_sq_div_two_le_cos (x := x - y)
    rw [Real.cos_sub] at h1
    rw [sq_abs]
    nlinarith [Real.sin_sq_add_cos_sq x, Real.sin_sq_add_cos_sq y]
  have e1 : ‖vec3 (Real.sin a * Real.sin b) (Real.sin a * Real.cos b) (Real.cos a) -
      vec3 (Real.sin a' * Real.sin b) (Real.sin a' * Real.cos b) (Real.cos a')‖ ≤ |a - a'| := by
    refine le_of_sq_le_sq ?_ (abs_nonneg _)
    refine le_trans (le_of_eq ?_) (key a a')
    rw [norm_sq3]
    simp only [vec3, PiLp.sub_apply, PiLp.toLp_apply, Matrix.cons_val]
    linear_combination (Real.sin a - Real.sin a') ^ 2 * Real.sin_sq_add_cos_sq b
  have e2 : ‖vec3 (Real.sin a' * Real.sin b) (Real.sin a' * Real.cos b) (Real.cos a') -
      vec3 (Real.sin a' * Real.sin b') (Real.sin a' * Real.cos b') (Real.cos a')‖ ≤ |b - b'| := by
    refine le_of_sq_le_sq ?_ (abs_nonneg _)
    refine le_trans ?_ (key b b')
    rw [norm_sq3]
    simp only [vec3, PiLp.sub_apply, PiLp.toLp_apply, Matrix.cons_val]
    have := Real.sin_sq_le_one a'
    nlinarith [sq_nonneg (Real.sin b - Real.sin b'), sq_nonneg (Real.cos b - Real.cos b')]
  exact (norm_sub_le_norm_sub_add_norm_sub _ _ _).trans (add_le_add e1 e2)

theorem norm_sphere_dir (a b : ℝ) : ‖vec3 (Real.sin a * Real.sin b) (Real.sin a * Real.cos b) (Real.cos a)‖ = 1 := by
  rw [← Real.sqrt_sq (norm_nonneg _), norm_sq3, Real.sqrt_eq_one]
  simp only [vec3, PiLp.toLp_apply, Matrix.cons_val]
  have h1 := Real.sin_sq_add_cos_sq a
  have h2 := Real.sin_sq_add_cos_sq b
  linear_combination Real.sin a ^ 2 * h2 + h1

/-- One rounded addition of vectors. -/
theorem fl_add_le (h : StdRounding u fl) {x y z : E n} (hz : ∀ i, z i = fl (x i + y i)) : ‖z - (x + y)‖ ≤ u * ‖x + y‖ := by
  have hu := h.nonneg
  refine le_of_sq_le_sq ?_ (by positivity)
  rw [mul_pow, EuclideanSpace.norm_sq_eq, EuclideanSpace.norm_sq_eq, Finset.mul_sum]
  refine Finset.sum_le_sum fun i _ => ?_
  rw [Real.norm_eq_abs, Real.norm_eq_abs, ← mul_pow]
  refine pow_le_pow_left₀ (abs_nonneg _) ?_ 2
  rw [PiLp.sub_apply, hz, PiLp.add_apply]
  exact h.err _

/-- C120: `sphere.to_points(n_angles=k)` under rounding: `k²` points, each within `u (‖c‖ + 120 r)` of the corresponding point of the
exact mesh and within `u (‖c‖ + 11 r)` of the sphere.  `to_mesh` returns three `k × k` arrays with their coordinates. -/
theorem C120_sphere (h : StdRounding u fl) (hu : u ≤ 1 / 100) {c : E 3} {r : ℝ} {S : Sphere ℝ}
    (hS : @Sphere.new ℝ (rounded fl) (arr c) r = .ok S) (k : ℕ) (hk : 1 ≤ k) :
    ∃ Q : List (E 3), @Sphere.toPoints ℝ (rounded fl) S k = .ok (rows Q) ∧
      List.Forall₂ (fun q x => dist q x ≤ u * (‖c‖ + 120 * r)) Q (sphereMesh c r k) ∧
      (∀ q ∈ Q, |dist q c - r| ≤ u * (‖c‖ + 11 * r)) ∧
      ∃ X Y Z, @Sphere.toMesh ℝ (rounded fl) S k = (X, Y, Z) ∧ X.length = k ∧ Y.length = k ∧ Z.length = k ∧
        (∀ row, row ∈ X ∨ row ∈ Y ∨ row ∈ Z → row.length = k) ∧ meshToPoints X Y Z = rows Q := by
  obtain ⟨hr, rfl⟩ := sphere_new_rd hS
  have hu0 := h.nonneg
  have hε := h.eps_nonneg
  have hA := linspace_rd h zero_le_one (h.rp Real.pi) k
  have hB := linspace_rd h zero_le_two (by have := h.step ((RP.refl (eps u) 2).mul (h.rp Real.pi)); norm_num at this; exact this) k
  obtain ⟨as, has⟩ : ∃ as, as = @linspace ℝ (rounded fl) (@zero ℝ (rounded fl)) (fl Real.pi) k := ⟨_, rfl⟩
  obtain ⟨bs, hbs⟩ : ∃ bs, bs = @linspace ℝ (rounded fl) (@zero ℝ (rounded fl)) (fl (2 * fl Real.pi)) k := ⟨_, rfl⟩
  rw [← has] at hA
  rw [← hbs] at hB
  have hla : as.length = k := by rw [hA.length_eq, length_evenSteps]
  have hlb : bs.length = k := by rw [hB.length_eq, length_evenSteps]
  let F : ℝ → ℝ → E 3 := fun a b => vec3 (fl (c 0 + fl (r * fl (fl (Real.sin a) * fl (Real.sin b)))))
    (fl (c 1 + fl (r * fl (fl (Real.sin a) * fl (Real.cos b))))) (fl (c 2 + fl (r * fl (fl (Real.cos a) * 1))))
  have hmesh : @Sphere.toMesh ℝ (rounded fl) ⟨arr c, r⟩ k =
      (as.map fun a => bs.map fun b => F a b 0, as.map fun a => bs.map fun b => F a b 1, as.map fun a => bs.map fun b => F a b 2) := by
    simp only [Sphere.toMesh, arr3, pi_rd, two_rd, mul_rd, add_rd, sin_rd, cos_rd, one_rd, ← has, ← hbs]
    rfl
  have hpts : meshToPoints (as.map fun a => bs.map fun b => F a b 0) (as.map fun a => bs.map fun b => F a b 1)
      (as.map fun a => bs.map fun b => F a b 2) = rows (as.flatMap fun a => bs.map fun b => F a b) := by
    apply mesh_grid2
    intro a b
    simp [arr3]
  -- one point
  have hpt : ∀ a b, ‖F a b - spherePoint c r a b‖ ≤ u * (‖c‖ + 11 * r) := by
    intro a b
    let w : E 3 := vec3 (fl (r * fl (fl (Real.sin a) * fl (Real.sin b)))) (fl (r * fl (fl (Real.sin a) * fl (Real.cos b))))
      (fl (r * fl (fl (Real.cos a) * 1)))
    obtain ⟨d, hd⟩ : ∃ d, d = r • vec3 (Real.sin a * Real.sin b) (Real.sin a * Real.cos b) (Real.cos a) := ⟨_, rfl⟩
    have hdn : ‖d‖ = r := by rw [hd, norm_smul, norm_sphere_dir, Real.norm_eq_abs, abs_of_pos hr, mul_one]
    have hw : CRP (eps u) 4 w d := by
      have key : ∀ x y : ℝ, RP (eps u) 4 (fl (r * fl (fl x * fl y))) (r * (x * y)) := by
        intro x y
        have := h.step ((RP.refl (eps u) r).mul (h.step ((h.rp x).mul (h.rp y))))
        norm_num at this; exact this
      have key1 : ∀ x : ℝ, RP (eps u) 4 (fl (r * fl (fl x * 1))) (r * x) := by
        intro x
        have := h.step ((RP.refl (eps u) r).mul (h.step ((h.rp x).mul (RP.refl (eps u) 1))))
        rw [mul_one x] at this
        exact this.mono hε (by norm_num)
      rw [hd]
      intro i
      fin_cases i
      · exact key _ _
      · exact key _ _
      · exact key1 _
    have h1 := CRP.norm_sub_le hw (by positivity)
    have h2 := exp_eps_le2 h (k := 4) (by norm_num) (by linarith)
    have h3 : ‖w - d‖ ≤ 8 * u * r := by
      refine h1.trans ?_
      rw [hdn]
      exact mul_le_mul_of_nonneg_right (by linarith) hr.le
    have h4 : ‖F a b - (c + w)‖ ≤ u * ‖c + w‖ := by
      apply fl_add_le h
      intro i
      fin_cases i <;> rfl
    have h5 : ‖c + w‖ ≤ ‖c‖ + (1 + 8 * u) * r := by
      have e1 := norm_add_le c w
      have e2 : ‖w‖ ≤ ‖w - d‖ + ‖d‖ := by have := norm_add_le (w - d) d; rwa [sub_add_cancel] at this
      rw [hdn] at e2
      linarith
    have e : F a b - spherePoint c r a b = (F a b - (c + w)) + (w - d) := by
      rw [spherePoint, ← hd]; abel
    rw [e]
    refine (norm_add_le _ _).trans ?_
    have h6 := mul_le_mul_of_nonneg_left h5 hu0
    have h7 : u * u * r ≤ 1 / 100 * (u * r) := by rw [mul_assoc]; exact mul_le_mul_of_nonneg_right hu (by positivity)
    nlinarith [norm_nonneg c, mul_nonneg hu0 hr.le]
  have hlen : (as.flatMap fun a => bs.map fun b => F a b).length = k * k := by
    rw [List.length_flatMap]; simp [hla, hlb]
  refine ⟨as.flatMap fun a => bs.map fun b => F a b, ?_, ?_, ?_, _, _, _, hmesh, ?_, ?_, ?_, ?_, hpts⟩
  · simp only [Sphere.toPoints, hmesh, hpts]
    apply newPoints_rd
    intro h
    rw [h] at hlen
    simp at hlen
    omega
  · have pi3 := Real.pi_lt_d2
    have pi0 := Real.pi_pos
    have hA' : List.Forall₂ (fun a a' => |a - a'| ≤ 32 * u) as (evenSteps Real.pi k) := by
      refine (forall₂_and_mem hA fun x hx => evenSteps_bounds pi0.le hx).imp ?_
      rintro a a' ⟨ha, h0, h1⟩
      have h2 := ha.abs_sub_le
      have h3 := exp_eps_le2 h (k := 1 + 4) (by norm_num) (by linarith)
      rw [abs_of_nonneg h0] at h2
      nlinarith
    have hB' : List.Forall₂ (fun a a' => |a - a'| ≤ 76 * u) bs (evenSteps (2 * Real.pi) k) := by
      refine (forall₂_and_mem hB fun x hx => evenSteps_bounds (by positivity) hx).imp ?_
      rintro a a' ⟨ha, h0, h1⟩
      have h2 := ha.abs_sub_le
      have h3 := exp_eps_le2 h (k := 2 + 4) (by norm_num) (by linarith)
      rw [abs_of_nonneg h0] at h2
      nlinarith
    refine forall₂_grid hA' hB' fun a a' b b' ha hb => ?_
    have h1 := hpt a b
    have h2 : ‖spherePoint c r a b - spherePoint c r a' b'‖ ≤ r * (108 * u) := by
      rw [spherePoint, spherePoint, add_sub_add_left_eq_sub, ← smul_sub, norm_smul, Real.norm_eq_abs, abs_of_pos hr]
      refine mul_le_mul_of_nonneg_left ((sphere_turn _ _ _ _).trans ?_) hr.le
      linarith
    rw [dist_eq_norm]
    refine (norm_sub_le_norm_sub_add_norm_sub _ (spherePoint c r a b) _).trans ?_
    nlinarith [mul_nonneg hu0 hr.le]
  · intro x hx
    obtain ⟨a, -, hx⟩ := List.mem_flatMap.mp hx
    obtain ⟨b, -, rfl⟩ := List.mem_map.mp hx
    refine le_trans ?_ (hpt a b)
    have h1 : dist (spherePoint c r a b) c = r := by
      rw [dist_eq_norm, spherePoint, add_sub_cancel_left, norm_smul, norm_sphere_dir, Real.norm_eq_abs, abs_of_pos hr, mul_one]
    rw [← dist_eq_norm]
    nth_rewrite 1 [← h1]
    exact abs_dist_sub_le _ _ _
  · simp [hla]
  · simp [hla]
  · simp [hla]
  · rintro row (h | h | h) <;> obtain ⟨a, -, rfl⟩ := List.mem_map.mp h <;> simp [hlb]


/-! ### Planes -/

theorem plane_new_rd [NeZero n] (h : StdRounding u fl) (hu : u ≤ 1 / 2) {p m : E n} {P : Plane ℝ}
    (hP : @Plane.new ℝ (rounded fl) (arr p) (arr m) = .ok P) : m ≠ 0 ∧ P = ⟨arr p, arr m⟩ := by
  have hm : m ≠ 0 := by
    intro h0
    rw [((C73_constructors h hu p m).2 h0).2] at hP
    exact absurd hP (by simp)
  rw [((C73_constructors h hu p m).1 hm).2, Except.ok.injEq] at hP
  exact ⟨hm, hP.symm⟩

/-- Solving the equation of a plane for one coordinate. -/
theorem mesh_solve (h : StdRounding u fl) (hu : u ≤ 1 / 100) {a b c d d' x y D : ℝ} (hc : c ≠ 0) (hD : |d| ≤ D)
    (hd : |d' - d| ≤ 8 * u * D) :
    |a * x + b * y + c * fl (-(fl (fl (fl (a * x) + fl (b * y)) + d')) / c) + d| ≤ u * (7 * (|a * x| + |b * y|) + 12 * D) := by
  have hu0 := h.nonneg
  have hD0 : 0 ≤ D := (abs_nonneg _).trans hD
  obtain ⟨X, hX⟩ : ∃ X, X = a * x := ⟨_, rfl⟩
  obtain ⟨Y, hY⟩ : ∃ Y, Y = b * y := ⟨_, rfl⟩
  rw [← hX, ← hY]
  have e1 := h.err X
  have e2 := h.err Y
  have e3 := h.err (fl X + fl Y)
  have e4 := h.err (fl (fl X + fl Y) + d')
  obtain ⟨s, hs⟩ : ∃ s, s = fl (fl (fl X + fl Y) + d') := ⟨_, rfl⟩
  obtain ⟨t, ht⟩ : ∃ t, t = fl (fl X + fl Y) := ⟨_, rfl⟩
  rw [← hs] at e4 ⊢
  rw [← ht] at e3 e4
  obtain ⟨x', hx'⟩ : ∃ x', x' = fl X := ⟨_, rfl⟩
  obtain ⟨y', hy'⟩ : ∃ y', y' = fl Y := ⟨_, rfl⟩
  rw [← hx'] at e1 e3
  rw [← hy'] at e2 e3
  have e5 : |c * fl (-s / c) + s| ≤ u * |s| := by
    have h1 := h.err (-s / c)
    have h2 : c * fl (-s / c) + s = c * (fl (-s / c) - -s / c) := by field_simp; ring
    rw [h2, abs_mul]
    refine (mul_le_mul_of_nonneg_left h1 (abs_nonneg c)).trans (le_of_eq ?_)
    rw [abs_div, abs_neg]
    have := abs_pos.mpr hc
    field_simp
  have a0 : |d'| ≤ (1 + 8 * u) * D := by have := abs_sub_abs_le_abs_sub d' d; linarith
  have a1 : |x' + y' - (X + Y)| ≤ u * (|X| + |Y|) := by
    have : x' + y' - (X + Y) = (x' - X) + (y' - Y) := by ring
    rw [this]; refine (abs_add_le _ _).trans ?_; linarith
  have a2 : |x' + y'| ≤ (1 + u) * (|X| + |Y|) := by
    have h1 := abs_sub_abs_le_abs_sub (x' + y') (X + Y)
    have h2 := abs_add_le X Y
    linarith
  have hW : 0 ≤ |X| + |Y| := by positivity
  obtain ⟨W, hWe⟩ : ∃ W, W = |X| + |Y| := ⟨_, rfl⟩
  rw [← hWe] at a1 a2 hW ⊢
  have a3 : |t - (X + Y)| ≤ u * (21 / 10 * W) := by
    have h1 : t - (X + Y) = (t - (x' + y')) + (x' + y' - (X + Y)) := by ring
    rw [h1]; refine (abs_add_le _ _).trans ?_
    have h2 := mul_le_mul_of_nonneg_left a2 hu0
    have h3 : u * ((1 + u) * W) ≤ u * (11 / 10 * W) := by
      refine mul_le_mul_of_nonneg_left ?_ hu0; nlinarith
    linarith
  have a4 : |t| ≤ 11 / 10 * W := by
    have h1 := abs_sub_abs_le_abs_sub t (X + Y)
    have h2 := abs_add_le X Y
    nlinarith
  have a5 : |t + d'| ≤ 11 / 10 * W + 11 / 10 * D := by
    refine (abs_add_le _ _).trans ?_
    nlinarith
  have a6 : |s - (t + d')| ≤ u * (11 / 10 * W + 11 / 10 * D) := e4.trans (mul_le_mul_of_nonneg_left a5 hu0)
  have a7 : |s| ≤ 12 / 10 * W + 12 / 10 * D := by
    have h1 := abs_sub_abs_le_abs_sub s (t + d')
    nlinarith
  have a8 := mul_le_mul_of_nonneg_left a7 hu0
  have key : X + Y + c * fl (-s / c) + d = (c * fl (-s / c) + s) - (s - (t + d')) - (t - (X + Y)) - (d' - d) := by ring
  rw [key]
  refine (abs_sub _ _).trans ?_
  have b1 := abs_sub (c * fl (-s / c) + s) (s - (t + d'))
  have b2 := abs_sub (c * fl (-s / c) + s - (s - (t + d'))) (t - (X + Y))
  nlinarith [mul_nonneg hu0 hW, mul_nonneg hu0 hD0]

theorem abs_products_le (m x : E 3) (i j : Fin 3) (hij : i ≠ j) : |m i * x i| + |m j * x j| ≤ ‖m‖ * ‖x‖ := by
  refine le_of_sq_le_sq ?_ (by positivity)
  rw [mul_pow, norm_sq3, norm_sq3]
  have h1 : (|m i * x i| + |m j * x j|) ^ 2 ≤ (m i ^ 2 + m j ^ 2) * (x i ^ 2 + x j ^ 2) := by
    rw [abs_mul, abs_mul, ← sq_abs (m i), ← sq_abs (m j), ← sq_abs (x i), ← sq_abs (x j)]
    nlinarith [sq_nonneg (|m i| * |x j| - |m j| * |x i|)]
  have h2 : m i ^ 2 + m j ^ 2 ≤ m 0 ^ 2 + m 1 ^ 2 + m 2 ^ 2 ∧ x i ^ 2 + x j ^ 2 ≤ x 0 ^ 2 + x 1 ^ 2 + x 2 ^ 2 := by
    have := sq_nonneg (m 0); have := sq_nonneg (m 1); have := sq_nonneg (m 2)
    have := sq_nonneg (x 0); have := sq_nonneg (x 1); have := sq_nonneg (x 2)
    fin_cases i <;> fin_cases j <;> first | exact absurd rfl hij | (simp; constructor <;> linarith)
  refine h1.trans (mul_le_mul h2.1 h2.2 (by positivity) (by positivity))

set_option maxHeartbeats 1000000 in
/-- C120: `plane.to_points(lims_x, lims_y)` under rounding (dimension 2 or 3): one point per pair of limits, in mesh order, each
within `u (7 ‖q‖ + 12 ‖p‖)` of the plane; the two coordinates that are not solved for are the first two coordinates of the plane's
point plus the limits, correctly rounded.  `to_mesh` returns arrays with their coordinates. -/
theorem C120_plane [NeZero n] (h2 : 2 ≤ n) (h3 : n ≤ 3) (h : StdRounding u fl) (hu : u ≤ 1 / 100) {p m : E n} {P : Plane ℝ}
    (hP : @Plane.new ℝ (rounded fl) (arr p) (arr m) = .ok P) (lx ly : List ℝ) (hx : lx ≠ []) (hy : ly ≠ []) :
    ∃ F : ℝ × ℝ → E 3,
      @Plane.toPoints ℝ (rounded fl) P lx ly = .ok (rows ((limPairs lx ly).map F)) ∧
      (∃ X Y Z, @Plane.toMesh ℝ (rounded fl) P lx ly = .ok (X, Y, Z) ∧ X.length = ly.length ∧ Y.length = ly.length ∧
        Z.length = ly.length ∧ (∀ r, r ∈ X ∨ r ∈ Y ∨ r ∈ Z → r.length = lx.length) ∧
        meshToPoints X Y Z = rows ((limPairs lx ly).map F)) ∧
      (∀ q, Metric.infDist (F q) (planeSet (pad3 p) (pad3 m)) ≤ u * (7 * ‖F q‖ + 12 * ‖p‖)) ∧
      (pad3 m 2 ≠ 0 → ∀ q, F q 0 = fl (pad3 p 0 + q.1) ∧ F q 1 = fl (pad3 p 1 + q.2)) ∧
      (pad3 m 2 = 0 → pad3 m 1 ≠ 0 → ∀ q, F q 0 = fl (pad3 p 0 + q.1) ∧ F q 2 = fl (pad3 p 1 + q.2)) ∧
      (pad3 m 2 = 0 → pad3 m 1 = 0 → ∀ q, F q 1 = fl (pad3 p 0 + q.1) ∧ F q 2 = fl (pad3 p 1 + q.2)) := by
  classical
  have hu0 := h.nonneg
  obtain ⟨hm, rfl⟩ := plane_new_rd h (by linarith) hP
  obtain ⟨d', hcart, hd'⟩ := C115_cartesian h3 h p m
  have hpt : ∃ rest, arr p = pad3 p 0 :: pad3 p 1 :: rest := by
    obtain ⟨k, rfl⟩ : ∃ k, n = k + 2 := ⟨n - 2, by omega⟩
    refine ⟨(arr p).drop 2, ?_⟩
    rw [arr, List.ofFn_succ, List.ofFn_succ]
    simp [padTo]
  obtain ⟨rest, hpt⟩ := hpt
  have hpm : pad3 m ≠ 0 := by
    intro h0; apply hm; apply pad3_injective h3; rw [h0]; ext i; simp [padTo]
  have hmn : 0 < ‖pad3 m‖ := norm_pos_iff.mpr hpm
  obtain ⟨D, hDe⟩ : ∃ D, D = ‖m‖ * ‖p‖ := ⟨_, rfl⟩
  have hD : |(-(inner ℝ m p : ℝ))| ≤ D := by rw [abs_neg, hDe]; exact abs_real_inner_le_norm _ _
  have hdd : |d' - -(inner ℝ m p : ℝ)| ≤ 8 * u * D := by
    rw [sub_neg_eq_add, hDe]
    refine hd'.trans (mul_le_mul_of_nonneg_right ?_ (by positivity))
    have e := exp_eps_le2 h (k := (n + 1 : ℕ)) (by push_cast; linarith [(Nat.cast_nonneg n : (0 : ℝ) ≤ n)]) (by
      have : ((n + 1 : ℕ) : ℝ) ≤ 4 := by exact_mod_cast Nat.succ_le_succ h3
      nlinarith)
    rw [exp_nat h (m := n + 1) rfl] at e
    refine e.trans ?_
    have : ((n + 1 : ℕ) : ℝ) ≤ 4 := by exact_mod_cast Nat.succ_le_succ h3
    nlinarith
  -- the distance from the plane
  have hdist : ∀ y : E 3, |pad3 m 0 * y 0 + pad3 m 1 * y 1 + pad3 m 2 * y 2 + -(inner ℝ m p : ℝ)| ≤ u * (7 * (‖pad3 m‖ * ‖y‖) + 12 * D) →
      Metric.infDist y (planeSet (pad3 p) (pad3 m)) ≤ u * (7 * ‖y‖ + 12 * ‖p‖) := by
    intro y hy
    rw [infDist_planeSet _ hpm, div_le_iff₀ hmn]
    have e1 : (inner ℝ (y - pad3 p) (pad3 m) : ℝ) = pad3 m 0 * y 0 + pad3 m 1 * y 1 + pad3 m 2 * y 2 + -(inner ℝ m p : ℝ) := by
      rw [real_inner_comm, inner_sub_right, inner_pad3 h3, inner3, sub_eq_add_neg]
    rw [e1]
    refine hy.trans (le_of_eq ?_)
    rw [hDe, norm_pad3 h3]; ring
  have hres : ∀ (y : E 3) (i j : Fin 3), i ≠ j → u * (7 * (|pad3 m i * y i| + |pad3 m j * y j|) + 12 * D) ≤ u * (7 * (‖pad3 m‖ * ‖y‖) + 12 * D) := by
    intro y i j hij
    refine mul_le_mul_of_nonneg_left ?_ hu0
    have := abs_products_le (pad3 m) y i j hij
    linarith
  set a := pad3 m 0 with ha
  set b := pad3 m 1 with hb
  set c := pad3 m 2 with hc
  set s := pad3 p 0
  set v := pad3 p 1
  have hpairs : ∀ F : ℝ × ℝ → E 3, @newPoints ℝ (rounded fl) (rows ((limPairs lx ly).map F)) =
      .ok (rows ((limPairs lx ly).map F)) := by
    intro F
    apply newPoints_rd
    simp only [limPairs, ne_eq, List.map_eq_nil_iff, List.flatMap_eq_nil_iff, not_forall]
    obtain ⟨y, hy'⟩ := List.exists_mem_of_ne_nil ly hy
    exact ⟨y, hy', by simpa using hx⟩
  have hgrid : ∀ f g h : ℝ → ℝ → ℝ, meshToPoints (ly.map fun y => lx.map fun x => f x y)
      (ly.map fun y => lx.map fun x => g x y) (ly.map fun y => lx.map fun x => h x y) =
      rows ((limPairs lx ly).map fun q => vec3 (f q.1 q.2) (g q.1 q.2) (h q.1 q.2)) := by
    intro f g h
    rw [meshToPoints_grid]
    simp [rows, arr3, vec3]
  let G : ℝ → ℝ → ℝ → ℝ → ℝ → ℝ := fun p q r x y => fl (-(fl (fl (fl (p * x) + fl (q * y)) + d')) / r)
  have hmesh : @Plane.toMesh ℝ (rounded fl) ⟨arr p, arr m⟩ lx ly =
      if c ≠ 0 then .ok (ly.map fun _ => lx.map fun x => fl (s + x), ly.map fun y => lx.map fun _ => fl (v + y),
        ly.map fun y => lx.map fun x => G a b c (fl (s + x)) (fl (v + y)))
      else if b ≠ 0 then .ok (ly.map fun _ => lx.map fun x => fl (s + x),
        ly.map fun y => lx.map fun x => G a c b (fl (s + x)) (fl (v + y)),
        ly.map fun y => lx.map fun _ => fl (v + y))
      else .ok (ly.map fun y => lx.map fun x => G b c a (fl (s + x)) (fl (v + y)),
        ly.map fun _ => lx.map fun x => fl (s + x), ly.map fun y => lx.map fun _ => fl (v + y)) := by
    have e : ∀ (q r t : ℝ), List.zipWith (List.zipWith fun x y => fl (-(fl (fl (fl (q * x) + fl (r * y)) + d')) / t))
        (ly.map fun _ => lx.map fun x => fl (s + x)) (ly.map fun y => lx.map fun _ => fl (v + y)) =
        ly.map fun y => lx.map fun x => G q r t (fl (s + x)) (fl (v + y)) := by
      intro q r t
      rw [zipWith_map_same]
      apply List.map_congr_left
      intro y _
      rw [zipWith_map_same]
    simp only [Plane.toMesh, hcart, ok_bind]
    simp only [hpt, add_rd, mul_rd, neg_rd, div_rd, List.map_map,
      Function.comp_def, e, eq_rd, zero_rd, pure_ok]
    by_cases hc0 : c = 0 <;> by_cases hb0 : b = 0 <;> simp [hc0, hb0]
  by_cases hc0 : c = 0
  · by_cases hb0 : b = 0
    · have ha0 : a ≠ 0 := by
        intro ha0; apply hpm
        ext i; fin_cases i
        · exact ha0
        · exact hb0
        · exact hc0
      rw [if_neg (by simpa using hc0), if_neg (by simpa using hb0)] at hmesh
      have hg := hgrid (fun x y => G b c a (fl (s + x)) (fl (v + y))) (fun x _ => fl (s + x)) (fun _ y => fl (v + y))
      refine ⟨fun q => vec3 (G b c a (fl (s + q.1)) (fl (v + q.2))) (fl (s + q.1)) (fl (v + q.2)), ?_,
        ⟨_, _, _, hmesh, by simp, by simp, by simp, ?_, hg⟩, ?_, fun h => absurd hc0 h,
        fun _ h => absurd hb0 h, fun _ _ q => by simp [vec3]⟩
      · simp only [Plane.toPoints, hmesh, ok_bind]
        rw [hg, hpairs]
      · rintro r (h | h | h) <;> obtain ⟨y, -, rfl⟩ := List.mem_map.mp h <;> simp
      · intro q
        refine hdist _ (le_trans ?_ (hres _ 1 2 (by decide)))
        have := mesh_solve h hu (a := b) (b := c) (x := fl (s + q.1)) (y := fl (v + q.2)) ha0 hD hdd
        refine le_trans (le_of_eq ?_) this
        congr 1
        simp only [vec3, PiLp.toLp_apply, Matrix.cons_val, G]
        ring
    · rw [if_neg (by simpa using hc0), if_pos hb0] at hmesh
      have hg := hgrid (fun x _ => fl (s + x)) (fun x y => G a c b (fl (s + x)) (fl (v + y))) (fun _ y => fl (v + y))
      refine ⟨fun q => vec3 (fl (s + q.1)) (G a c b (fl (s + q.1)) (fl (v + q.2))) (fl (v + q.2)), ?_,
        ⟨_, _, _, hmesh, by simp, by simp, by simp, ?_, hg⟩, ?_, fun h => absurd hc0 h,
        fun _ _ q => by simp [vec3], fun _ h => absurd h hb0⟩
      · simp only [Plane.toPoints, hmesh, ok_bind]
        rw [hg, hpairs]
      · rintro r (h | h | h) <;> obtain ⟨y, -, rfl⟩ := List.mem_map.mp h <;> simp
      · intro q
        refine hdist _ (le_trans ?_ (hres _ 0 2 (by decide)))
        have := mesh_solve h hu (a := a) (b := c) (x := fl (s + q.1)) (y := fl (v + q.2)) hb0 hD hdd
        refine le_trans (le_of_eq ?_) this
        congr 1
        simp only [vec3, PiLp.toLp_apply, Matrix.cons_val, G]
        ring
  · rw [if_pos hc0] at hmesh
    have hg := hgrid (fun x _ => fl (s + x)) (fun _ y => fl (v + y)) (fun x y => G a b c (fl (s + x)) (fl (v + y)))
    refine ⟨fun q => vec3 (fl (s + q.1)) (fl (v + q.2)) (G a b c (fl (s + q.1)) (fl (v + q.2))), ?_,
      ⟨_, _, _, hmesh, by simp, by simp, by simp, ?_, hg⟩, ?_, fun _ q => by simp [vec3],
      fun h => absurd h hc0, fun h => absurd h hc0⟩
    · simp only [Plane.toPoints, hmesh, ok_bind]
      rw [hg, hpairs]
    · rintro r (h | h | h) <;> obtain ⟨y, -, rfl⟩ := List.mem_map.mp h <;> simp
    · intro q
      refine hdist _ (le_trans ?_ (hres _ 0 1 (by decide)))
      have := mesh_solve h hu (a := a) (b := b) (x := fl (s + q.1)) (y := fl (v + q.2)) hc0 hD hdd
      refine le_trans (le_of_eq ?_) this
      congr 1


/-! ### Cylinders -/

theorem unit_crp (h : StdRounding u fl) {k : ℝ} (hk : 0 ≤ k) {x d : E n} (hx : CRP (eps u) k x d) (hd : d ≠ 0) :
    ∃ z : E n, @Vec.unit ℝ (rounded fl) (arr x) = .ok (arr z) ∧
      CRP (eps u) (2 * k + (n + 5) / 2) z (‖d‖⁻¹ • d) := by
  have hε := h.eps_nonneg
  have hx0 : x ≠ 0 := by
    intro h0; apply hd; ext i
    have := (hx i).eq_zero.mp (by rw [h0]; rfl)
    exact this
  obtain ⟨z, hz, hc⟩ := unit_rd h x hx0
  refine ⟨z, hz, fun i => ?_⟩
  have h1 := (CRP.norm_rp (by positivity) hx).inv.mul (hx i)
  have h2 := (hc i).trans (by simpa using h1)
  rw [show ((n : ℝ) + 5) / 2 + (k + k) = 2 * k + (n + 5) / 2 by ring] at h2
  simpa using h2

/-- The rounded cross product with a basis vector has no cancellation. -/
theorem cross_basis_rd (h : StdRounding u fl) {k : ℝ} {z d : E 3} (hz : CRP (eps u) k z d) (hk : 0 ≤ k) {i : Fin 3}
    (hi : i = 0 ∨ i = 1) :
    ∃ c : E 3, @Vec.cross ℝ (rounded fl) (arr z) (arr (EuclideanSpace.single i (1 : ℝ))) = .ok (arr c) ∧
      CRP (eps u) (k + 2) c (crossE d (EuclideanSpace.single i (1 : ℝ))) := by
  have hε := h.eps_nonneg
  have f0 : fl 0 = 0 := h.eq_zero.mpr rfl
  have r0 : RP (eps u) (k + 2) 0 0 := (RP.refl _ _).mono hε (by linarith)
  have r1 : ∀ j, RP (eps u) (k + 2) (fl (fl (z j))) (d j) := fun j => by
    have := h.step (h.step (hz j)); rwa [show k + 1 + 1 = k + 2 by ring] at this
  have r2 : ∀ j, RP (eps u) (k + 2) (fl (-(fl (z j)))) (-(d j)) := fun j => by
    have := h.step (h.step (hz j)).neg; rwa [show k + 1 + 1 = k + 2 by ring] at this
  rcases hi with rfl | rfl
  · refine ⟨vec3 0 (fl (fl (z 2))) (fl (-(fl (z 1)))), ?_, ?_⟩
    · simp only [Vec.cross, setDimension3_rd (le_refl 3), new1D_rd, ok_bind, pad3_self]
      have := new1D_rd (fl := fl) (vec3 0 (fl (fl (z 2))) (fl (-(fl (z 1)))))
      simp only [arr3, vec3, PiLp.toLp_apply, Matrix.cons_val] at this
      simp [arr3, cross3, vec3, mul_rd, sub_rd, f0, this]
    · intro j
      fin_cases j <;> simp [crossE, vec3]
      · exact r0
      · exact r1 2
      · exact r2 1
  · refine ⟨vec3 (fl (-(fl (z 2)))) 0 (fl (fl (z 0))), ?_, ?_⟩
    · simp only [Vec.cross, setDimension3_rd (le_refl 3), new1D_rd, ok_bind, pad3_self]
      have := new1D_rd (fl := fl) (vec3 (fl (-(fl (z 2)))) 0 (fl (fl (z 0))))
      simp only [arr3, vec3, PiLp.toLp_apply, Matrix.cons_val] at this
      simp [arr3, cross3, vec3, mul_rd, sub_rd, f0, this]
    · intro j
      fin_cases j <;> simp [crossE, vec3]
      · exact r2 2
      · exact r0
      · exact r1 0

/-- A rotation in the plane of two orthonormal vectors. -/
theorem circle_turn {e f : E n} (he : ‖e‖ = 1) (hf : ‖f‖ = 1) (hef : inner ℝ e f = (0 : ℝ)) {r : ℝ} (hr : 0 ≤ r) (a b : ℝ) :
    ‖((r * Real.sin a) • e + (r * Real.cos a) • f) - ((r * Real.sin b) • e + (r * Real.cos b) • f)‖ ≤ r * |a - b| := by
  have h0 : ((r * Real.sin a) • e + (r * Real.cos a) • f) - ((r * Real.sin b) • e + (r * Real.cos b) • f) =
      (r * (Real.sin a - Real.sin b)) • e + (r * (Real.cos a - Real.cos b)) • f := by
    rw [mul_sub, mul_sub, sub_smul, sub_smul]; abel
  rw [h0]
  refine le_of_sq_le_sq ?_ (by positivity)
  rw [norm_add_sq_real, norm_smul, norm_smul, real_inner_smul_left, real_inner_smul_right, hef, he, hf, Real.norm_eq_abs,
    Real.norm_eq_abs, mul_one, mul_one, sq_abs, sq_abs, mul_pow r |a - b|, sq_abs]
  have h1 := Real.one_sub_sq_div_two_le_cos (x := a - b)
  rw [Real.cos_sub] at h1
  have h2 : (Real.sin a - Real.sin b) ^ 2 + (Real.cos a - Real.cos b) ^ 2 ≤ (a - b) ^ 2 := by
    nlinarith [Real.sin_sq_add_cos_sq a, Real.sin_sq_add_cos_sq b]
  nlinarith [mul_le_mul_of_nonneg_left h2 (sq_nonneg r)]

/-- Three rounded additions. -/
theorem add3_error (h : StdRounding u fl) (hu : u ≤ 1 / 100) {p T A B S1 S2 S : E n} (h1 : ∀ i, S1 i = fl (p i + T i))
    (h2 : ∀ i, S2 i = fl (S1 i + A i)) (h3 : ∀ i, S i = fl (S2 i + B i)) :
    ‖S - (p + T + A + B)‖ ≤ u * (4 * (‖p‖ + ‖T‖) + 3 * ‖A‖ + 2 * ‖B‖) := by
  have hu0 := h.nonneg
  have e1 := fl_add_le h h1
  have e2 := fl_add_le h h2
  have e3 := fl_add_le h h3
  have n1 := norm_add_le p T
  have n2 := norm_add_le S1 A
  have n3 := norm_add_le S2 B
  have m1 : ‖S1‖ ≤ ‖S1 - (p + T)‖ + ‖p + T‖ := by have := norm_add_le (S1 - (p + T)) (p + T); rwa [sub_add_cancel] at this
  have m2 : ‖S2‖ ≤ ‖S2 - (S1 + A)‖ + ‖S1 + A‖ := by have := norm_add_le (S2 - (S1 + A)) (S1 + A); rwa [sub_add_cancel] at this
  have a0 := norm_nonneg (p + T)
  have a1 := norm_nonneg (S1 + A)
  have a2 := norm_nonneg A
  have a3 := norm_nonneg B
  have k1 : ‖S1‖ ≤ 11 / 10 * (‖p‖ + ‖T‖) := by nlinarith
  have k2 : ‖S1 + A‖ ≤ 11 / 10 * (‖p‖ + ‖T‖) + ‖A‖ := by linarith
  have k3 : ‖S2 + B‖ ≤ 13 / 10 * (‖p‖ + ‖T‖) + 11 / 10 * ‖A‖ + ‖B‖ := by nlinarith
  have e : S - (p + T + A + B) = (S - (S2 + B)) + ((S2 - (S1 + A)) + (S1 - (p + T))) := by abel
  rw [e]
  refine (norm_add_le _ _).trans ?_
  have := norm_add_le (S2 - (S1 + A)) (S1 - (p + T))
  have q1 := mul_le_mul_of_nonneg_left n1 hu0
  have q2 := mul_le_mul_of_nonneg_left k2 hu0
  have q3 := mul_le_mul_of_nonneg_left k3 hu0
  nlinarith [mul_nonneg hu0 (norm_nonneg p), mul_nonneg hu0 (norm_nonneg T), mul_nonneg hu0 a2, mul_nonneg hu0 a3]

set_option maxHeartbeats 2000000 in
/-- C120: `cylinder.to_points(n_along_axis=k, n_angles=m)` under rounding: for the unit axis `v` and two vectors `e`, `f` orthonormal
to it, the points are within `u (4 ‖p‖ + 30 ‖a‖ + 340 r)` of the exact mesh, `m` angles times `k` heights, and so of the lateral
surface.  `to_mesh` returns three `m × k` arrays with their coordinates. -/
theorem C120_cylinder (h : StdRounding u fl) (hu : u ≤ 3 / 100000000000) {p a : E 3} {r : ℝ} {C : Cylinder ℝ}
    (hC : @Cylinder.new ℝ (rounded fl) (arr p) (arr a) r = .ok C) (k m : ℕ) (hk : 1 ≤ k) (hm : 1 ≤ m) :
    ∃ (Q : List (E 3)) (v e f : E 3), a = ‖a‖ • v ∧ Orthonormal ℝ ![v, e, f] ∧
      @Cylinder.toPoints ℝ (rounded fl) C k m = .ok (rows Q) ∧
      List.Forall₂ (fun q x => dist q x ≤ u * (4 * ‖p‖ + 30 * ‖a‖ + 340 * r)) Q (cylinderMesh p v e f ‖a‖ r k m) ∧
      (∀ q ∈ Q, Metric.infDist q (latCyl p a r) ≤ u * (4 * ‖p‖ + 30 * ‖a‖ + 340 * r)) ∧
      ∃ X Y Z, @Cylinder.toMesh ℝ (rounded fl) C k m = .ok (X, Y, Z) ∧ X.length = m ∧ Y.length = m ∧ Z.length = m ∧
        (∀ row, row ∈ X ∨ row ∈ Y ∨ row ∈ Z → row.length = k) ∧ meshToPoints X Y Z = rows Q := by
  have hu0 := h.nonneg
  have hε := h.eps_nonneg
  obtain ⟨ha, hr, rfl⟩ := cylinder_new_rd h (by linarith) hC
  have hn : 0 < ‖a‖ := norm_pos_iff.mpr ha
  -- the frame
  obtain ⟨v, hv⟩ : ∃ v, v = ‖a‖⁻¹ • a := ⟨_, rfl⟩
  have hav : a = ‖a‖ • v := by rw [hv, smul_smul, mul_inv_cancel₀ hn.ne', one_smul]
  have hvn : ‖v‖ = 1 := by rw [hv, norm_unit ha]
  have hv0 : v ≠ 0 := by rw [← norm_ne_zero_iff, hvn]; exact one_ne_zero
  obtain ⟨v', hv', cv⟩ := unit_rd h a ha
  rw [← hv] at cv
  have cv4 : CRP (eps u) 4 v' v := by
    intro i; have := cv i; norm_num at this; exact this
  have hv'0 : v' ≠ 0 := by
    intro h0; apply hv0; ext i
    have := (cv4 i).eq_zero.mp (by rw [h0]; rfl)
    exact this
  obtain ⟨i, hi, hdd, hcos⟩ := C114_different_direction (n := 1) h (by norm_num; linarith) hv'0
  have hs0 : (EuclideanSpace.single i (1 : ℝ) : E 3) ≠ 0 := by
    rw [← norm_ne_zero_iff]; simp
  obtain ⟨w, hw⟩ : ∃ w, w = crossE v (EuclideanSpace.single i (1 : ℝ)) := ⟨_, rfl⟩
  have hw0 : w ≠ 0 := by
    have h1 := sine_cross (n := 3) (le_refl 3) hv'0 hs0
    rw [pad3_self, pad3_self] at h1
    have h2 : 0 < √(1 - cosE v' (EuclideanSpace.single i (1 : ℝ)) ^ 2) := by
      apply Real.sqrt_pos.mpr
      have := abs_nonneg (cosE v' (EuclideanSpace.single i (1 : ℝ)))
      rw [← sq_abs]; nlinarith
    have h3 : 0 < ‖crossE v' (EuclideanSpace.single i (1 : ℝ))‖ := by
      rw [h1]
      have := norm_pos_iff.mpr hv'0
      have := norm_pos_iff.mpr hs0
      positivity
    obtain ⟨c1, e1, q1⟩ := cross_basis_rd h (CRP.refl (eps u) v') le_rfl hi
    obtain ⟨c2, e2, q2⟩ := cross_basis_rd h cv4 (by norm_num) hi
    rw [e1, Except.ok.injEq] at e2
    have e3 := arr_injective e2
    subst e3
    intro h0
    rw [hw] at h0
    apply (norm_pos_iff.mp h3)
    ext j
    have h4 := (q2 j).eq_zero.mpr (by rw [h0]; rfl)
    exact (q1 j).eq_zero.mp h4
  obtain ⟨w', hw', cw⟩ := cross_basis_rd h cv4 (by norm_num) hi
  rw [← hw] at cw
  obtain ⟨e, he⟩ : ∃ e, e = ‖w‖⁻¹ • w := ⟨_, rfl⟩
  have hen : ‖e‖ = 1 := by rw [he, norm_unit hw0]
  have hve : inner ℝ e v = (0 : ℝ) := by rw [he, real_inner_smul_left, hw, crossE_inner_left, mul_zero]
  obtain ⟨e', he', ce⟩ := unit_crp h (by norm_num) cw hw0
  rw [← he] at ce
  have ce16 : CRP (eps u) 16 e' e := by
    intro j; have := ce j; norm_num at this; exact this
  obtain ⟨f, hf⟩ : ∃ f, f = crossE v e := ⟨_, rfl⟩
  have hfn : ‖f‖ = 1 := by
    have := crossE_norm_sq v e
    rw [real_inner_comm, hve, hvn, hen, ← hf] at this
    have h : ‖f‖ ^ 2 = 1 := by linarith
    exact (pow_eq_one_iff_of_nonneg (norm_nonneg f) two_ne_zero).mp h
  have hvf : inner ℝ f v = (0 : ℝ) := by rw [hf]; exact crossE_inner_left _ _
  have hef : inner ℝ f e = (0 : ℝ) := by rw [hf]; exact crossE_inner_right _ _
  obtain ⟨g, hg, cg⟩ := cross_rd (n := 3) (le_refl 3) h (k := 16) (by norm_num) (fun j => (cv4 j).mono hε (by norm_num)) ce16
  rw [pad3_self, pad3_self, ← hf, hvn, hen] at cg
  have cg' : ‖g - f‖ ≤ 102 * u := by
    refine cg.trans ?_
    have h1 := exp_eps_le2 h (k := 2 * 16 + 2) (by norm_num) (by linarith)
    have h2 := sqrt2_le
    have h3 : 0 ≤ √2 := Real.sqrt_nonneg _
    nlinarith
  have hg0 : g ≠ 0 := by
    intro h0
    rw [h0, zero_sub, norm_neg, hfn] at cg'
    linarith
  obtain ⟨f', hf', cf⟩ := unit_rd h g hg0
  have cf4 : CRP (eps u) 4 f' (‖g‖⁻¹ • g) := by
    intro j; have := cf j; norm_num at this; exact this
  have h4u := exp_eps_le2 h (k := 4) (by norm_num) (by linarith)
  have hfd : ‖f' - f‖ ≤ 212 * u := by
    have h1 := CRP.norm_sub_le cf4 (by positivity)
    rw [norm_unit hg0] at h1
    have h2 := unit_near hfn hg0 cg'
    have h3 := norm_sub_le_norm_sub_add_norm_sub f' (‖g‖⁻¹ • g) f
    linarith
  -- the parameters
  have hL : RP (eps u) 3 (@Cylinder.length ℝ (rounded fl) ⟨arr p, arr a, r⟩) ‖a‖ := by
    have := h.normv_rp le_rfl (CRP.refl (eps u) a)
    norm_num at this; exact this
  have hT := linspace_rd h (by norm_num) hL k
  have hΘ := linspace_rd h zero_le_two (by have := h.step ((RP.refl (eps u) 2).mul (h.rp Real.pi)); norm_num at this; exact this) m
  obtain ⟨ts, hts⟩ : ∃ ts, ts = @linspace ℝ (rounded fl) (@zero ℝ (rounded fl)) (@Cylinder.length ℝ (rounded fl) ⟨arr p, arr a, r⟩) k := ⟨_, rfl⟩
  obtain ⟨θs, hθs⟩ : ∃ θs, θs = @linspace ℝ (rounded fl) (@zero ℝ (rounded fl)) (fl (2 * fl Real.pi)) m := ⟨_, rfl⟩
  rw [← hts] at hT
  rw [← hθs] at hΘ
  have hlt : ts.length = k := by rw [hT.length_eq, length_evenSteps]
  have hlθ : θs.length = m := by rw [hΘ.length_eq, length_evenSteps]
  let F : ℝ → ℝ → E 3 := fun θ t => WithLp.toLp 2 fun i => fl (fl (fl (p i + fl (v' i * t)) + fl (fl (r * fl (Real.sin θ)) * e' i)) +
    fl (fl (r * fl (Real.cos θ)) * f' i))
  have hmesh : @Cylinder.toMesh ℝ (rounded fl) ⟨arr p, arr a, r⟩ k m = .ok
      (θs.map fun θ => ts.map fun t => F θ t 0, θs.map fun θ => ts.map fun t => F θ t 1,
       θs.map fun θ => ts.map fun t => F θ t 2) := by
    unfold Cylinder.toMesh
    simp only [hv', ok_bind, wrapped_rd, hdd, hw', he', hg, hf', pure_ok, pi_rd, two_rd, mul_rd, ← hts, ← hθs]
    simp only [arr3, add_rd, sin_rd, cos_rd]
    rfl
  have hpts : meshToPoints (θs.map fun θ => ts.map fun t => F θ t 0) (θs.map fun θ => ts.map fun t => F θ t 1)
      (θs.map fun θ => ts.map fun t => F θ t 2) = rows (θs.flatMap fun θ => ts.map fun t => F θ t) := by
    apply mesh_grid2
    intro a b
    simp [arr3]
  have hlen : (θs.flatMap fun θ => ts.map fun t => F θ t).length = m * k := by
    rw [List.length_flatMap]; simp [hlt, hlθ]
  -- one point
  have hpt : ∀ θ t' t, RP (eps u) (3 + 4) t' t → 0 ≤ t → t ≤ ‖a‖ →
      ‖F θ t' - (p + t • v + (r * Real.sin θ) • e + (r * Real.cos θ) • f)‖ ≤ u * (4 * ‖p‖ + 30 * ‖a‖ + 264 * r) := by
    intro θ t' t ht ht0 ht1
    let T : E 3 := WithLp.toLp 2 fun i => fl (v' i * t')
    let A : E 3 := WithLp.toLp 2 fun i => fl (fl (r * fl (Real.sin θ)) * e' i)
    let B : E 3 := WithLp.toLp 2 fun i => fl (fl (r * fl (Real.cos θ)) * f' i)
    have cT : CRP (eps u) 12 T (t • v) := fun i => by
      have := h.step ((cv4 i).mul ht)
      norm_num at this
      rw [PiLp.smul_apply, smul_eq_mul, mul_comm]
      exact this
    have cA : CRP (eps u) 19 A ((r * Real.sin θ) • e) := fun i => by
      have := h.step ((h.step ((RP.refl (eps u) r).mul (h.rp (Real.sin θ)))).mul (ce16 i))
      norm_num at this
      rw [PiLp.smul_apply, smul_eq_mul]
      exact this
    have cB : CRP (eps u) 3 B ((r * Real.cos θ) • f') := fun i => by
      have := h.step ((h.step ((RP.refl (eps u) r).mul (h.rp (Real.cos θ)))).mul (RP.refl (eps u) (f' i)))
      norm_num at this
      rw [PiLp.smul_apply, smul_eq_mul]
      exact this
    have hsin : |r * Real.sin θ| ≤ r := by
      rw [abs_mul, abs_of_pos hr]; nlinarith [Real.abs_sin_le_one θ]
    have hcos : |r * Real.cos θ| ≤ r := by
      rw [abs_mul, abs_of_pos hr]; nlinarith [Real.abs_cos_le_one θ]
    have nT : ‖t • v‖ ≤ ‖a‖ := by rw [norm_smul, hvn, Real.norm_eq_abs, abs_of_nonneg ht0, mul_one]; exact ht1
    have nA : ‖(r * Real.sin θ) • e‖ ≤ r := by rw [norm_smul, hen, Real.norm_eq_abs, mul_one]; exact hsin
    have nf' : ‖f'‖ ≤ 11 / 10 := by
      have := norm_add_le (f' - f) f
      rw [sub_add_cancel, hfn] at this
      linarith
    have nB : ‖(r * Real.cos θ) • f'‖ ≤ 11 / 10 * r := by
      rw [norm_smul, Real.norm_eq_abs]
      have := mul_le_mul hcos nf' (norm_nonneg _) hr.le
      linarith
    have dT : ‖T - t • v‖ ≤ 24 * u * ‖a‖ := by
      refine (CRP.norm_sub_le cT (by positivity)).trans ?_
      have := exp_eps_le2 h (k := 12) (by norm_num) (by linarith)
      exact mul_le_mul (by linarith) nT (norm_nonneg _) (by positivity)
    have dA : ‖A - (r * Real.sin θ) • e‖ ≤ 38 * u * r := by
      refine (CRP.norm_sub_le cA (by positivity)).trans ?_
      have := exp_eps_le2 h (k := 19) (by norm_num) (by linarith)
      exact mul_le_mul (by linarith) nA (norm_nonneg _) (by positivity)
    have dB : ‖B - (r * Real.cos θ) • f'‖ ≤ 7 * u * r := by
      refine (CRP.norm_sub_le cB (by positivity)).trans ?_
      have := exp_eps_le2 h (k := 3) (by norm_num) (by linarith)
      refine (mul_le_mul (show _ ≤ 6 * u by linarith) nB (norm_nonneg _) (by positivity)).trans ?_
      nlinarith [mul_nonneg hu0 hr.le]
    have dB' : ‖(r * Real.cos θ) • f' - (r * Real.cos θ) • f‖ ≤ 212 * u * r := by
      rw [← smul_sub, norm_smul, Real.norm_eq_abs]
      refine (mul_le_mul hcos hfd (norm_nonneg _) hr.le).trans (le_of_eq (by ring))
    have main := add3_error h (by linarith) (p := p) (T := T) (A := A) (B := B)
      (S1 := WithLp.toLp 2 fun i => fl (p i + fl (v' i * t')))
      (S2 := WithLp.toLp 2 fun i => fl (fl (p i + fl (v' i * t')) + fl (fl (r * fl (Real.sin θ)) * e' i)))
      (S := F θ t') (fun i => rfl) (fun i => rfl) (fun i => rfl)
    have NT : ‖T‖ ≤ 11 / 10 * ‖a‖ := by
      have := norm_add_le (T - t • v) (t • v)
      rw [sub_add_cancel] at this
      nlinarith
    have NA : ‖A‖ ≤ 11 / 10 * r := by
      have := norm_add_le (A - (r * Real.sin θ) • e) ((r * Real.sin θ) • e)
      rw [sub_add_cancel] at this
      nlinarith
    have NB : ‖B‖ ≤ 12 / 10 * r := by
      have := norm_add_le (B - (r * Real.cos θ) • f') ((r * Real.cos θ) • f')
      rw [sub_add_cancel] at this
      nlinarith
    have e0 : F θ t' - (p + t • v + (r * Real.sin θ) • e + (r * Real.cos θ) • f) = (F θ t' - (p + T + A + B)) +
        ((T - t • v) + ((A - (r * Real.sin θ) • e) + ((B - (r * Real.cos θ) • f') + ((r * Real.cos θ) • f' - (r * Real.cos θ) • f)))) := by
      abel
    rw [e0]
    have t1 := norm_add_le (F θ t' - (p + T + A + B))
        ((T - t • v) + ((A - (r * Real.sin θ) • e) + ((B - (r * Real.cos θ) • f') + ((r * Real.cos θ) • f' - (r * Real.cos θ) • f))))
    have t2 := norm_add_le (T - t • v) ((A - (r * Real.sin θ) • e) + ((B - (r * Real.cos θ) • f') + ((r * Real.cos θ) • f' - (r * Real.cos θ) • f)))
    have t3 := norm_add_le (A - (r * Real.sin θ) • e) ((B - (r * Real.cos θ) • f') + ((r * Real.cos θ) • f' - (r * Real.cos θ) • f))
    have t4 := norm_add_le (B - (r * Real.cos θ) • f') ((r * Real.cos θ) • f' - (r * Real.cos θ) • f)
    have t5 : u * (4 * (‖p‖ + ‖T‖) + 3 * ‖A‖ + 2 * ‖B‖) ≤ u * (4 * (‖p‖ + 11 / 10 * ‖a‖) + 3 * (11 / 10 * r) + 2 * (12 / 10 * r)) :=
      mul_le_mul_of_nonneg_left (by linarith) hu0
    nlinarith [mul_nonneg hu0 hr.le, mul_nonneg hu0 hn.le]
  have hfin : List.Forall₂ (fun q x => dist q x ≤ u * (4 * ‖p‖ + 30 * ‖a‖ + 340 * r)) (θs.flatMap fun θ => ts.map fun t => F θ t)
      (cylinderMesh p v e f ‖a‖ r k m) := by
    have pi3 := Real.pi_lt_d2
    have pi0 := Real.pi_pos
    have hΘ' : List.Forall₂ (fun a a' => |a - a'| ≤ 76 * u) θs (evenSteps (2 * Real.pi) m) := by
      refine (forall₂_and_mem hΘ fun x hx => evenSteps_bounds (by positivity) hx).imp ?_
      rintro a a' ⟨ha, h0, h1⟩
      have h2 := ha.abs_sub_le
      have h3 := exp_eps_le2 h (k := 2 + 4) (by norm_num) (by linarith)
      rw [abs_of_nonneg h0] at h2
      nlinarith
    refine forall₂_grid hΘ' (forall₂_and_mem hT fun x hx => evenSteps_bounds hn.le hx) fun θ θ' t t' hθ ht => ?_
    have h1 := hpt θ t t' ht.1 ht.2.1 ht.2.2
    have h2 := circle_turn hen hfn (by rw [real_inner_comm]; exact hef) hr.le θ θ'
    have h3 : (p + t' • v + (r * Real.sin θ) • e + (r * Real.cos θ) • f) - (p + t' • v + (r * Real.sin θ') • e + (r * Real.cos θ') • f) =
        ((r * Real.sin θ) • e + (r * Real.cos θ) • f) - ((r * Real.sin θ') • e + (r * Real.cos θ') • f) := by abel
    rw [← h3] at h2
    rw [dist_eq_norm]
    refine (norm_sub_le_norm_sub_add_norm_sub _ (p + t' • v + (r * Real.sin θ) • e + (r * Real.cos θ) • f) _).trans ?_
    nlinarith [mul_le_mul_of_nonneg_left hθ hr.le, mul_nonneg hu0 hr.le]
  have hlat : ∀ x ∈ cylinderMesh p v e f ‖a‖ r k m, x ∈ latCyl p a r := by
    intro x hx
    obtain ⟨θ, -, hx⟩ := List.mem_flatMap.mp hx
    obtain ⟨t, ht, rfl⟩ := List.mem_map.mp hx
    obtain ⟨b1, b2⟩ := evenSteps_bounds hn.le ht
    refine ⟨t / ‖a‖, (r * Real.sin θ) • e + (r * Real.cos θ) • f, by positivity, (div_le_one hn).mpr b2, ?_, ?_, ?_⟩
    · rw [hav, real_inner_smul_right, inner_add_left, real_inner_smul_left, real_inner_smul_left, hve, hvf]; simp
    · have : ‖(r * Real.sin θ) • e + (r * Real.cos θ) • f‖ ^ 2 = r ^ 2 := by
        rw [norm_add_sq_real, norm_smul, norm_smul, real_inner_smul_left, real_inner_smul_right, real_inner_comm,
          hef, hen, hfn, Real.norm_eq_abs, Real.norm_eq_abs, mul_one, mul_one, sq_abs, sq_abs]
        linear_combination r ^ 2 * Real.sin_sq_add_cos_sq θ
      exact (pow_left_inj₀ (norm_nonneg _) hr.le two_ne_zero).mp this
    · rw [add_assoc (p + t • v)]
      congr 2
      conv_rhs => rw [hav]
      rw [smul_smul, norm_smul, hvn, mul_one, norm_norm, div_mul_cancel₀ _ hn.ne']
  refine ⟨_, v, e, f, hav, ?_, ?_, hfin, ?_, _, _, _, hmesh, ?_, ?_, ?_, ?_, hpts⟩
  · rw [orthonormal_iff_ite]
    intro i j
    fin_cases i <;> fin_cases j <;>
      simp [real_inner_self_eq_norm_sq, hvn, hen, hfn, hve, hvf, hef, real_inner_comm v e, real_inner_comm v f,
        real_inner_comm e f]
    all_goals first | (rw [real_inner_comm]; assumption) | assumption
  · simp only [Cylinder.toPoints, hmesh, ok_bind, hpts]
    apply newPoints_rd
    intro h
    rw [h] at hlen
    have : 0 < m * k := by positivity
    simp at hlen; omega
  · intro q hq
    obtain ⟨j, hj, rfl⟩ := List.mem_iff_getElem.mp hq
    have hj' : j < (cylinderMesh p v e f ‖a‖ r k m).length := by rw [← hfin.length_eq]; exact hj
    have h1 := (List.forall₂_iff_get.mp hfin).2 j hj hj'
    exact (Metric.infDist_le_dist_of_mem (hlat _ (List.getElem_mem hj'))).trans h1
  · simp [hlθ]
  · simp [hlθ]
  · simp [hlθ]
  · rintro row (h | h | h) <;> obtain ⟨a, -, rfl⟩ := List.mem_map.mp h <;> simp [hlt]


/-! ### Concrete cases in binary64 precision -/

/-- The sphere with center `(1, 2, 3)` and radius `2`, and a mesh of 100 points. -/
example : ∃ S, @Sphere.new ℝ (rounded (leftToRight (roundNearest 53))) (arr (vec3 1 2 3)) 2 = .ok S ∧
    ∃ Q : List (E 3), @Sphere.toPoints ℝ (rounded (leftToRight (roundNearest 53))) S 10 = .ok (rows Q) ∧ Q.length = 100 := by
  obtain ⟨S, hS⟩ : ∃ S, @Sphere.new ℝ (rounded (leftToRight (roundNearest 53))) (arr (vec3 1 2 3)) 2 = .ok S :=
    ⟨_, sphere_new_ok _ (by norm_num)⟩
  obtain ⟨Q, h1, h2, -⟩ := C120_sphere std53 (by norm_num) hS 10 (by norm_num)
  exact ⟨S, hS, Q, h1, by rw [h2.length_eq]; simp [sphereMesh, evenSteps, Function.comp_def]⟩

/-- The plane through `(1, 2, 3)` with normal `(1, 1, 1)`, and a mesh of four points. -/
example : ∃ P, @Plane.new ℝ (rounded (leftToRight (roundNearest 53))) (arr (vec3 1 2 3)) (arr (vec3 1 1 1)) = .ok P ∧
    ∃ Q : List (E 3), @Plane.toPoints ℝ (rounded (leftToRight (roundNearest 53))) P [-1, 1] [-1, 1] = .ok (rows Q) ∧ Q.length = 4 := by
  have h0 : vec3 1 1 1 ≠ 0 := by
    intro h; have := congrFun (congrArg WithLp.ofLp h) 0; simp [vec3] at this
  obtain ⟨P, hP⟩ : ∃ P, @Plane.new ℝ (rounded (leftToRight (roundNearest 53))) (arr (vec3 1 2 3)) (arr (vec3 1 1 1)) = .ok P :=
    ⟨_, plane_new_pad std53 (by norm_num) h0⟩
  obtain ⟨F, h1, -⟩ := C120_plane (n := 3) (by norm_num) (by norm_num) std53 (by norm_num) hP [-1, 1] [-1, 1] (by simp) (by simp)
  exact ⟨P, hP, _, h1, by simp [limPairs]⟩

/-- The cylinder at `(1, 2, 3)` with axis `(0, 3, 4)` and radius `2`, and a mesh of 20 points. -/
example : ∃ C, @Cylinder.new ℝ (rounded (leftToRight (roundNearest 53))) (arr (vec3 1 2 3)) (arr (vec3 0 3 4)) 2 = .ok C ∧
    ∃ Q : List (E 3), @Cylinder.toPoints ℝ (rounded (leftToRight (roundNearest 53))) C 2 10 = .ok (rows Q) ∧ Q.length = 20 := by
  have h0 : vec3 0 3 4 ≠ 0 := by
    intro h; have := congrFun (congrArg WithLp.ofLp h) 1; simp [vec3] at this
  obtain ⟨C, hC⟩ : ∃ C, @Cylinder.new ℝ (rounded (leftToRight (roundNearest 53))) (arr (vec3 1 2 3)) (arr (vec3 0 3 4)) 2 = .ok C := by
    refine ⟨⟨arr (vec3 1 2 3), arr (vec3 0 3 4), 2⟩, ?_⟩
    simp only [Cylinder.new, new1D_rd, ok_bind, length_arr, C73_is_zero std53 (show _ ≤ _ by norm_num), lt_rd, zero_rd]
    simp [h0]
  obtain ⟨Q, v, e, f, -, -, h1, h2, -⟩ := C120_cylinder std53 (by norm_num) hC 2 10 (by norm_num) (by norm_num)
  exact ⟨C, hC, Q, h1, by rw [h2.length_eq]; simp [cylinderMesh, evenSteps, Function.comp_def]⟩

end SkSpatial
