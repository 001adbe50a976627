import Verif.Props.Rounding25
import Verif.Props.RankRounded2
/-! # C116: `Circle.from_points` under rounding -/

namespace SkSpatial
open StdRounding

variable {u η : ℝ} {fl : Arith} {n : ℕ}

theorem StableDet3.le {δ : ℝ} {det : ℝ → ℝ → ℝ → ℝ → ℝ → ℝ → ℝ → ℝ → ℝ → ℝ} (hdet : StableDet3 δ det) {X Y Z : ℝ}
    {a b c d e f g h i : ℝ} (ha : |a| ≤ X) (hd : |d| ≤ X) (hg : |g| ≤ X) (hb : |b| ≤ Y) (he : |e| ≤ Y) (hh : |h| ≤ Y)
    (hc : |c| ≤ Z) (hf : |f| ≤ Z) (hi : |i| ≤ Z) :
    |det a b c d e f g h i - (a * (e * i - f * h) - b * (d * i - f * g) + c * (d * h - e * g))| ≤ δ * (X * Y * Z) := by
  have hX : 0 ≤ X := (abs_nonneg _).trans ha
  have hY : 0 ≤ Y := (abs_nonneg _).trans hb
  have hZ : 0 ≤ Z := (abs_nonneg _).trans hc
  refine (hdet.2 a b c d e f g h i).trans (mul_le_mul_of_nonneg_left ?_ hdet.1)
  have h1 : max |a| (max |d| |g|) ≤ X := max_le ha (max_le hd hg)
  have h2 : max |b| (max |e| |h|) ≤ Y := max_le hb (max_le he hh)
  have h3 : max |c| (max |f| |i|) ≤ Z := max_le hc (max_le hf hi)
  gcongr

/-- A quotient whose numerator and denominator are perturbed. -/
theorem cfp_quot {M M' D D' A ρ : ℝ} (hD : D ≠ 0) (hρ : ρ ≤ 1 / 26) (hD' : |D' - D| ≤ ρ * |D|)
    (hM : |M' - M| ≤ ρ * |D| * A) : D' ≠ 0 ∧ |M' / D' - M / D| ≤ 104 / 100 * ρ * (A + |M / D|) := by
  have hD0 : 0 < |D| := abs_pos.mpr hD
  have hρ0 : 0 ≤ ρ := by
    by_contra hc
    have := mul_neg_of_neg_of_pos (not_le.mp hc) hD0
    linarith [abs_nonneg (D' - D)]
  have h1 : 25 / 26 * |D| ≤ |D'| := by
    have h2 : |D| ≤ |D'| + |D' - D| := by
      have := abs_sub_abs_le_abs_sub D D'
      rw [abs_sub_comm] at this; linarith
    have := mul_le_mul_of_nonneg_right hρ hD0.le
    linarith
  have hD'0 : 0 < |D'| := by linarith
  have hne : D' ≠ 0 := abs_pos.mp hD'0
  refine ⟨hne, ?_⟩
  have e : M' / D' - M / D = ((M' - M) - M / D * (D' - D)) / D' := by field_simp; ring
  rw [e, abs_div, div_le_iff₀ hD'0]
  have h3 : |(M' - M) - M / D * (D' - D)| ≤ ρ * |D| * A + |M / D| * (ρ * |D|) := by
    refine (abs_sub _ _).trans (add_le_add hM ?_)
    rw [abs_mul]
    exact mul_le_mul_of_nonneg_left hD' (abs_nonneg _)
  have hA : 0 ≤ ρ * (A + |M / D|) := by
    have : 0 ≤ |D| * (ρ * (A + |M / D|)) := by
      have := (abs_nonneg _).trans h3
      calc (0:ℝ) ≤ _ := this
        _ = _ := by ring
    exact nonneg_of_mul_nonneg_right this hD0
  calc _ ≤ _ := h3
    _ = ρ * (A + |M / D|) * |D| := by ring
    _ ≤ ρ * (A + |M / D|) * (104 / 100 * |D'|) := mul_le_mul_of_nonneg_left (by linarith) hA
    _ = _ := by ring

/-- Half of a rounded quotient. -/
theorem cfp_half (h : StdRounding u fl) (hu : u ≤ 1 / 100) (s M D : ℝ) (hs : |s| = 1) :
    |fl (fl (s * fl (1 / 2) * M) / D) - s * (M / D) / 2| ≤ 3 * u * |M / D| := by
  have h1 := h.step ((h.step (((RP.refl (eps u) s).mul (h.rp (1 / 2))).mul (RP.refl (eps u) M))).div (RP.refl (eps u) D))
  have h2 := h1.abs_sub_le
  have h3 := exp_eps_le2 h (k := 0 + 1 + 0 + 1 + 0 + 1) (by norm_num) (by linarith)
  rw [show s * (1 / 2) * M / D = s * (M / D) / 2 by ring] at h2 h1
  refine h2.trans ?_
  have : |s * (M / D) / 2| = |M / D| / 2 := by rw [abs_div, abs_mul, hs]; norm_num
  rw [this]
  have := mul_le_mul_of_nonneg_right h3 (abs_nonneg (M / D))
  linarith

/-- The centre coordinate computed from the perturbed minors. -/
theorem cfp_coord (h : StdRounding u fl) (hu : u ≤ 1 / 100) {M M' D D' R S x s ρ : ℝ} (hD : D ≠ 0) (hρ : ρ ≤ 1 / 30)
    (hD' : |D' - D| ≤ ρ * |D|) (hM : |M' - M| ≤ ρ * |D| * R) (hs : |s| = 1) (hx : s * (M / D) = 2 * x) (hxS : |x| ≤ S)
    (hRS : R ≤ S) (huρ : 8 * u ≤ ρ) : |fl (fl (s * fl (1 / 2) * M') / D') - x| ≤ 24 / 10 * (ρ * S) := by
  have hS : 0 ≤ S := (abs_nonneg _).trans hxS
  have hu0 := h.nonneg
  have hρ0 : 0 ≤ ρ := by linarith
  obtain ⟨-, e1⟩ := cfp_quot hD (by linarith) hD' hM
  have e2 := cfp_half h hu s M' D' hs
  have hMx : |M / D| = 2 * |x| := by
    have := congrArg abs hx
    rw [abs_mul, hs, one_mul, abs_mul] at this
    simpa using this
  rw [hMx] at e1
  have hρS := mul_nonneg hρ0 hS
  have e3 : |M' / D' - M / D| ≤ 312 / 100 * (ρ * S) := by
    refine e1.trans ?_
    have : ρ * (R + 2 * |x|) ≤ ρ * (3 * S) := mul_le_mul_of_nonneg_left (by linarith) hρ0
    linarith
  have hρS2 : ρ * S ≤ 1 / 30 * S := mul_le_mul_of_nonneg_right hρ hS
  have e4 : |M' / D'| ≤ 211 / 100 * S := by
    have := abs_add_le (M' / D' - M / D) (M / D)
    rw [sub_add_cancel, hMx] at this
    linarith
  have e5 : |s * (M' / D') / 2 - x| ≤ 156 / 100 * (ρ * S) := by
    have : s * (M' / D') / 2 - x = s * (M' / D' - M / D) / 2 := by linear_combination hx / 2
    rw [this, abs_div, abs_mul, hs, one_mul, abs_two]
    linarith
  have e6 : 3 * u * |M' / D'| ≤ 8 / 10 * (ρ * S) := by
    have h1 : 8 * u * S ≤ ρ * S := mul_le_mul_of_nonneg_right huρ hS
    have h2 := mul_le_mul_of_nonneg_left e4 (by linarith : 0 ≤ 3 * u)
    linarith
  have := abs_add_le (fl (fl (s * fl (1 / 2) * M') / D') - s * (M' / D') / 2) (s * (M' / D') / 2 - x)
  rw [sub_add_sub_cancel] at this
  linarith

/-- The squared radius computed from them. -/
theorem cfp_radicand (h : StdRounding u fl) (hu : u ≤ 1 / 100) {M M' D D' R S x x' y y' ρ : ℝ} (hD : D ≠ 0)
    (hρ : ρ ≤ 1 / 30) (hD' : |D' - D| ≤ ρ * |D|) (hM : |M' - M| ≤ ρ * |D| * R ^ 2) (hR : 0 ≤ R) (hRS : R ≤ S)
    (hxS : |x| ≤ S) (hyS : |y| ≤ S) (hxyS : x ^ 2 + y ^ 2 ≤ S ^ 2) (hW : |M / D| ≤ S ^ 2)
    (hx : |x' - x| ≤ 24 / 10 * (ρ * S)) (hy : |y' - y| ≤ 24 / 10 * (ρ * S)) (huρ : 8 * u ≤ ρ) :
    |fl (fl (fl (x' * x') + fl (y' * y')) + fl (M' / D')) - (x ^ 2 + y ^ 2 + M / D)| ≤ 15 * (ρ * S ^ 2) := by
  have hS : 0 ≤ S := hR.trans hRS
  have hu0 := h.nonneg
  have hρ0 : 0 ≤ ρ := by linarith
  obtain ⟨-, e1⟩ := cfp_quot hD (by linarith) hD' hM
  obtain ⟨W, hWd⟩ : ∃ W, W = M / D := ⟨_, rfl⟩
  obtain ⟨W', hWd'⟩ : ∃ W', W' = M' / D' := ⟨_, rfl⟩
  rw [← hWd] at e1 hW ⊢
  rw [← hWd'] at e1 ⊢
  obtain ⟨Q, hQ⟩ : ∃ Q, Q = ρ * S ^ 2 := ⟨_, rfl⟩
  have hS2 : 0 ≤ S ^ 2 := by positivity
  have hQ0 : 0 ≤ Q := by rw [hQ]; positivity
  have hQ1 : Q ≤ 1 / 30 * S ^ 2 := by rw [hQ]; exact mul_le_mul_of_nonneg_right hρ hS2
  have huQ : 8 * (u * S ^ 2) ≤ Q := by
    rw [hQ]; have := mul_le_mul_of_nonneg_right huρ hS2; linarith
  rw [← hQ]
  have e2 : |W' - W| ≤ 208 / 100 * Q := by
    refine e1.trans ?_
    have h1 : R ^ 2 ≤ S ^ 2 := by gcongr
    have : ρ * (R ^ 2 + |W|) ≤ ρ * (2 * S ^ 2) := mul_le_mul_of_nonneg_left (by linarith) hρ0
    rw [hQ]; linarith
  have hsq : ∀ z z' : ℝ, |z| ≤ S → |z' - z| ≤ 24 / 10 * (ρ * S) → |z' * z' - z ^ 2| ≤ 51 / 10 * Q := by
    intro z z' hz hzz
    have h1 : |z' + z| ≤ 21 / 10 * S := by
      have h2 := abs_add_le (z' - z) (2 * z)
      rw [show z' - z + 2 * z = z' + z by ring, abs_mul, abs_two] at h2
      have := mul_le_mul_of_nonneg_right hρ hS
      linarith
    rw [show z' * z' - z ^ 2 = (z' - z) * (z' + z) by ring, abs_mul]
    calc |z' - z| * |z' + z| ≤ 24 / 10 * (ρ * S) * (21 / 10 * S) := by gcongr
      _ ≤ _ := by
        rw [show 24 / 10 * (ρ * S) * (21 / 10 * S) = 504 / 100 * (ρ * S ^ 2) by ring, ← hQ]; linarith
  have e3 := hsq x x' hxS hx
  have e4 := hsq y y' hyS hy
  -- the roundings
  have r1 := h.step ((h.rp (x' * x')))
  have k3 := exp_eps_le2 h (k := 1 + 1 + 1) (by norm_num) (by linarith)
  have hx2 : 0 ≤ x' * x' := mul_self_nonneg _
  have hy2 : 0 ≤ y' * y' := mul_self_nonneg _
  have hxy : RP (eps u) (1 + 1) (fl (fl (x' * x') + fl (y' * y'))) (x' * x' + y' * y') :=
    h.step (RP.add (by rw [one_mul]; exact h.eps_nonneg) (h.rp (x' * x')) (h.rp (y' * y')) hx2 hy2)
  have hxy' := hxy.abs_sub_le
  rw [abs_of_nonneg (add_nonneg hx2 hy2)] at hxy'
  have k2 := exp_eps_le2 h (k := 1 + 1) (by norm_num) (by linarith)
  obtain ⟨P, hP⟩ : ∃ P, P = fl (fl (x' * x') + fl (y' * y')) := ⟨_, rfl⟩
  rw [← hP] at hxy' ⊢
  obtain ⟨N, hN⟩ : ∃ N, N = x' * x' + y' * y' := ⟨_, rfl⟩
  have hN0 : 0 ≤ N := by rw [hN]; linarith
  rw [← hN] at hxy'
  have f1 : |P - N| ≤ 4 * u * N := hxy'.trans (mul_le_mul_of_nonneg_right (by linarith) hN0)
  have f2 : |fl W' - W'| ≤ u * |W'| := h.err W'
  have f3 : |fl (P + fl W') - (P + fl W')| ≤ u * |P + fl W'| := h.err _
  have hNle : N ≤ 14 / 10 * S ^ 2 := by
    have h1 := (abs_le.mp e3).2
    have h2 := (abs_le.mp e4).2
    rw [hN]; linarith
  have hWle : |W'| ≤ 11 / 10 * S ^ 2 := by
    have := abs_add_le (W' - W) W
    rw [sub_add_cancel] at this
    linarith
  have g1 : u * N ≤ u * (14 / 10 * S ^ 2) := mul_le_mul_of_nonneg_left hNle hu0
  have g2 : u * |W'| ≤ u * (11 / 10 * S ^ 2) := mul_le_mul_of_nonneg_left hWle hu0
  have huS : u * S ^ 2 ≤ 1 / 100 * S ^ 2 := mul_le_mul_of_nonneg_right hu hS2
  have hPW : |P + fl W'| ≤ 26 / 10 * S ^ 2 := by
    have a1 := abs_add_le (P - N) N
    have a2 := abs_add_le (fl W' - W') W'
    have a3 := abs_add_le P (fl W')
    rw [sub_add_cancel] at a1 a2
    rw [abs_of_nonneg hN0] at a1
    linarith
  have g3 : u * |P + fl W'| ≤ u * (26 / 10 * S ^ 2) := mul_le_mul_of_nonneg_left hPW hu0
  have t1 : fl (P + fl W') - (x ^ 2 + y ^ 2 + W) = (fl (P + fl W') - (P + fl W')) + (P - N) + (fl W' - W') + (W' - W) +
      (x' * x' - x ^ 2) + (y' * y' - y ^ 2) := by rw [hN]; ring
  rw [t1]
  have t2 := abs_add_le ((fl (P + fl W') - (P + fl W')) + (P - N) + (fl W' - W') + (W' - W) + (x' * x' - x ^ 2)) (y' * y' - y ^ 2)
  have t3 := abs_add_le ((fl (P + fl W') - (P + fl W')) + (P - N) + (fl W' - W') + (W' - W)) (x' * x' - x ^ 2)
  have t4 := abs_add_le ((fl (P + fl W') - (P + fl W')) + (P - N) + (fl W' - W')) (W' - W)
  have t5 := abs_add_le ((fl (P + fl W') - (P + fl W')) + (P - N)) (fl W' - W')
  have t6 := abs_add_le (fl (P + fl W') - (P + fl W')) (P - N)
  linarith

/-- The first three squared norms, rounded. -/
theorem cfp_sum (h : StdRounding u fl) (hu : u ≤ 1 / 100) (a : E 2) {R : ℝ} (hR : ‖a‖ ≤ R) :
    |fl (fl (a 0 * a 0) + fl (a 1 * a 1)) - ‖a‖ ^ 2| ≤ 4 * u * R ^ 2 ∧
    |fl (fl (a 0 * a 0) + fl (a 1 * a 1))| ≤ 104 / 100 * R ^ 2 := by
  have hu0 := h.nonneg
  have h1 : RP (eps u) (1 + 1) (fl (fl (a 0 * a 0) + fl (a 1 * a 1))) (a 0 * a 0 + a 1 * a 1) :=
    h.step (RP.add (by rw [one_mul]; exact h.eps_nonneg) (h.rp _) (h.rp _) (mul_self_nonneg _) (mul_self_nonneg _))
  have h2 := h1.abs_sub_le
  rw [show a 0 * a 0 + a 1 * a 1 = ‖a‖ ^ 2 by rw [norm_sq2]; ring, abs_of_nonneg (sq_nonneg ‖a‖)] at h2
  have k2 := exp_eps_le2 h (k := 1 + 1) (by norm_num) (by linarith)
  have hRR : ‖a‖ ^ 2 ≤ R ^ 2 := by gcongr
  have h3 : (Real.exp ((1 + 1) * eps u) - 1) * ‖a‖ ^ 2 ≤ 4 * u * R ^ 2 :=
    mul_le_mul (by linarith) hRR (by positivity) (by linarith)
  have hR2 : 0 ≤ R ^ 2 := sq_nonneg R
  have h4 : u * R ^ 2 ≤ 1 / 100 * R ^ 2 := mul_le_mul_of_nonneg_right hu hR2
  refine ⟨h2.trans h3, ?_⟩
  have h5 := abs_add_le (fl (fl (a 0 * a 0) + fl (a 1 * a 1)) - ‖a‖ ^ 2) (‖a‖ ^ 2)
  rw [sub_add_cancel, abs_of_nonneg (by positivity : 0 ≤ ‖a‖ ^ 2)] at h5
  linarith

/-- A minor with a column of squared norms. -/
theorem cfp_minor {δ τ : ℝ} {det : ℝ → ℝ → ℝ → ℝ → ℝ → ℝ → ℝ → ℝ → ℝ → ℝ} (hdet : StableDet3 δ det) (hu0 : 0 ≤ u)
    (hτ : τ = 2 * δ + 24 * u) {R Y Z s s' t t' v v' b c e f g i : ℝ} (hs : |s' - s| ≤ 4 * u * R ^ 2)
    (ht : |t' - t| ≤ 4 * u * R ^ 2) (hv : |v' - v| ≤ 4 * u * R ^ 2) (hs' : |s'| ≤ 104 / 100 * R ^ 2)
    (ht' : |t'| ≤ 104 / 100 * R ^ 2) (hv' : |v'| ≤ 104 / 100 * R ^ 2) (hb : |b| ≤ Y) (he : |e| ≤ Y) (hg : |g| ≤ Y)
    (hc : |c| ≤ Z) (hf : |f| ≤ Z) (hi : |i| ≤ Z) :
    |det s' b c t' e f v' g i - (s * (e * i - f * g) - b * (t * i - f * v) + c * (t * g - e * v))| ≤ τ * (R ^ 2 * Y * Z) := by
  have hY : 0 ≤ Y := (abs_nonneg _).trans hb
  have hZ : 0 ≤ Z := (abs_nonneg _).trans hc
  have h1 := hdet.le hs' ht' hv' hb he hg hc hf hi
  have hp : ∀ p q : ℝ, |p| ≤ Y → |q| ≤ Z → |p * q| ≤ Y * Z := fun p q h2 h3 => by rw [abs_mul]; gcongr
  have h2 : ∀ p q r w : ℝ, |p| ≤ Y → |q| ≤ Z → |r| ≤ Y → |w| ≤ Z → |p * q - r * w| ≤ 2 * (Y * Z) := fun p q r w h2 h3 h4 h5 => by
    have := abs_sub (p * q) (r * w)
    linarith [hp p q h2 h3, hp r w h4 h5]
  have e1 : |(s' - s) * (e * i - g * f)| ≤ 4 * u * R ^ 2 * (2 * (Y * Z)) := by
    rw [abs_mul]; exact mul_le_mul hs (h2 e i g f he hi hg hf) (abs_nonneg _) (by positivity)
  have e2 : |(t' - t) * (g * c - b * i)| ≤ 4 * u * R ^ 2 * (2 * (Y * Z)) := by
    rw [abs_mul]; exact mul_le_mul ht (h2 g c b i hg hc hb hi) (abs_nonneg _) (by positivity)
  have e3 : |(v' - v) * (b * f - e * c)| ≤ 4 * u * R ^ 2 * (2 * (Y * Z)) := by
    rw [abs_mul]; exact mul_le_mul hv (h2 b f e c hb hf he hc) (abs_nonneg _) (by positivity)
  have t1 : det s' b c t' e f v' g i - (s * (e * i - f * g) - b * (t * i - f * v) + c * (t * g - e * v)) =
      (det s' b c t' e f v' g i - (s' * (e * i - f * g) - b * (t' * i - f * v') + c * (t' * g - e * v'))) +
      (s' - s) * (e * i - g * f) + (t' - t) * (g * c - b * i) + (v' - v) * (b * f - e * c) := by ring
  rw [t1, hτ]
  have t2 := abs_add_le ((det s' b c t' e f v' g i - (s' * (e * i - f * g) - b * (t' * i - f * v') + c * (t' * g - e * v'))) +
      (s' - s) * (e * i - g * f) + (t' - t) * (g * c - b * i)) ((v' - v) * (b * f - e * c))
  have t3 := abs_add_le ((det s' b c t' e f v' g i - (s' * (e * i - f * g) - b * (t' * i - f * v') + c * (t' * g - e * v'))) +
      (s' - s) * (e * i - g * f)) ((t' - t) * (g * c - b * i))
  have t4 := abs_add_le (det s' b c t' e f v' g i - (s' * (e * i - f * g) - b * (t' * i - f * v') + c * (t' * g - e * v')))
      ((s' - s) * (e * i - g * f))
  have h3 : 0 ≤ δ * (R ^ 2 * Y * Z) := mul_nonneg hdet.1 (by positivity)
  linarith [show δ * (104 / 100 * R ^ 2 * Y * Z) = 104 / 100 * (δ * (R ^ 2 * Y * Z)) by ring,
    show (2 * δ + 24 * u) * (R ^ 2 * Y * Z) = 2 * (δ * (R ^ 2 * Y * Z)) + 24 * (u * (R ^ 2 * Y * Z)) by ring,
    show 4 * u * R ^ 2 * (2 * (Y * Z)) = 8 * (u * (R ^ 2 * Y * Z)) by ring]

theorem circle_new_ok (o : E 2) {r : ℝ} (hr : 0 < r) : @Circle.new ℝ (rounded fl) (arr o) r = .ok ⟨arr o, r⟩ := by
  simp only [Circle.new, newBaseSphere, le_rd, zero_rd, not_le.mpr hr, decide_false, Bool.false_eq_true, if_false, new1D_rd, ok_bind,
    pure_ok, length_arr, ne_eq, not_true_eq_false]

/-- Twice the signed area of the triangle `a b c`. -/
theorem cfp_area_le {a b c : E 2} {R : ℝ} (ha : ‖a‖ ≤ R) (hb : ‖b‖ ≤ R) (hc : ‖c‖ ≤ R) :
    |(b 0 - a 0) * (c 1 - a 1) - (c 0 - a 0) * (b 1 - a 1)| ≤ 3 * R ^ 2 := by
  have hR : 0 ≤ R := (norm_nonneg a).trans ha
  have key : ∀ v w : E 2, ‖v‖ ≤ R → ‖w‖ ≤ R → |v 0 * w 1 - v 1 * w 0| ≤ R ^ 2 := fun v w hv hw => by
    calc _ ≤ |v 0 * w 1| + |v 1 * w 0| := abs_sub _ _
      _ ≤ ‖v‖ * ‖w‖ := det_products_le v w
      _ ≤ R * R := by gcongr
      _ = _ := by ring
  have e : (b 0 - a 0) * (c 1 - a 1) - (c 0 - a 0) * (b 1 - a 1) =
      (b 0 * c 1 - b 1 * c 0) + (c 0 * a 1 - c 1 * a 0) + (a 0 * b 1 - a 1 * b 0) := by ring
  rw [e]
  have t1 := abs_add_le ((b 0 * c 1 - b 1 * c 0) + (c 0 * a 1 - c 1 * a 0)) (a 0 * b 1 - a 1 * b 0)
  have t2 := abs_add_le (b 0 * c 1 - b 1 * c 0) (c 0 * a 1 - c 1 * a 0)
  linarith [key b c hb hc, key c a hc ha, key a b ha hb]

set_option maxHeartbeats 2000000 in
/-- C116: `Circle.from_points(a, b, c)` under rounding, with every determinant routine whose error is at most `δ` times the product
of the largest entries of the columns.  For three points at a distance of at most `R` from the origin, on the circle around `o` with
radius `r`, and not found collinear: with `ρ = (2 δ + 24 u) R² / (2 area)` small enough for the radius to be meaningful
(`30 ρ (R + r)² ≤ r²`), a circle is returned, its centre within `4 ρ (R + r)` of `o`, its radius within `16 ρ (R + r)² / r` of `r`. -/
theorem C116_from_points (h : StdRounding u fl) (hu : u ≤ 1 / 100) [ext : NumpyExt ℝ] {δ : ℝ}
    {det : ℝ → ℝ → ℝ → ℝ → ℝ → ℝ → ℝ → ℝ → ℝ → ℝ} (hdet : StableDet3 δ det) {a b c o : E 2} {r R ρ : ℝ}
    (hao : a ∈ Metric.sphere o r) (hbo : b ∈ Metric.sphere o r) (hco : c ∈ Metric.sphere o r)
    (hr : 0 < r) (ha : ‖a‖ ≤ R) (hb : ‖b‖ ≤ R) (hc : ‖c‖ ≤ R)
    (harea : (b 0 - a 0) * (c 1 - a 1) - (c 0 - a 0) * (b 1 - a 1) ≠ 0)
    (hρ : ρ = (2 * δ + 24 * u) * R ^ 2 / |(b 0 - a 0) * (c 1 - a 1) - (c 0 - a 0) * (b 1 - a 1)|)
    (hsmall : 30 * ρ * (R + r) ^ 2 ≤ r ^ 2) (tol : Option ℝ)
    (hcol : @Pts.areCollinear ℝ (rounded fl) ext tol (rows [a, b, c]) = .ok false) :
    ∃ (o' : E 2) (r' : ℝ), @Circle.fromPointsWith ℝ (rounded fl) ext det tol (arr a) (arr b) (arr c) = .ok ⟨arr o', r'⟩ ∧ 0 < r' ∧
      dist o' o ≤ 4 * ρ * (R + r) ∧ |r' - r| ≤ 16 * ρ * (R + r) ^ 2 / r := by
  have hu0 := h.nonneg
  have hδ := hdet.1
  have hR : 0 ≤ R := (norm_nonneg a).trans ha
  obtain ⟨D, hD⟩ : ∃ D, D = (b 0 - a 0) * (c 1 - a 1) - (c 0 - a 0) * (b 1 - a 1) := ⟨_, rfl⟩
  have hD3 := cfp_area_le ha hb hc
  rw [← hD] at harea hρ hD3
  have hD0 : 0 < |D| := abs_pos.mpr harea
  have hRD : |D| / 3 ≤ R ^ 2 := by linarith
  have hρD : ρ * |D| = (2 * δ + 24 * u) * R ^ 2 := by rw [hρ]; field_simp
  have hρ0 : 0 ≤ ρ := by rw [hρ]; positivity
  have huρ : 8 * u ≤ ρ := by
    rw [hρ, le_div_iff₀ hD0]
    have h1 : u * |D| ≤ u * (3 * R ^ 2) := mul_le_mul_of_nonneg_left hD3 hu0
    have h2 : 0 ≤ δ * R ^ 2 := by positivity
    linarith
  obtain ⟨S, hS⟩ : ∃ S, S = R + r := ⟨_, rfl⟩
  rw [← hS] at hsmall ⊢
  have hS0 : 0 < S := by linarith
  have hrS : r ≤ S := by linarith
  have hρ30 : ρ ≤ 1 / 30 := by
    by_contra hcon
    have h1 : r ^ 2 ≤ S ^ 2 := by gcongr
    have h2 : S ^ 2 < 30 * ρ * S ^ 2 := by
      have : 0 < S ^ 2 := by positivity
      nlinarith [not_le.mp hcon]
    linarith
  -- the squared norms
  obtain ⟨W, hW⟩ : ∃ W, W = r ^ 2 - ‖o‖ ^ 2 := ⟨_, rfl⟩
  have hon : ∀ p : E 2, p ∈ Metric.sphere o r → ‖p‖ ^ 2 = 2 * o 0 * p 0 + 2 * o 1 * p 1 + W := by
    intro p hp
    rw [Metric.mem_sphere, dist_eq_norm] at hp
    have h1 : ‖p - o‖ ^ 2 = r ^ 2 := by rw [hp]
    rw [norm_sq2] at h1
    rw [hW, norm_sq2, norm_sq2]
    simp only [PiLp.sub_apply] at h1
    linarith
  have ea := hon a hao
  have eb := hon b hbo
  have ec := hon c hco
  have ho : ‖o‖ ≤ S := by
    rw [Metric.mem_sphere, dist_comm, dist_eq_norm] at hao
    calc ‖o‖ = ‖(o - a) + a‖ := by simp
      _ ≤ ‖o - a‖ + ‖a‖ := norm_add_le _ _
      _ ≤ _ := by linarith
  have ho2 : ‖o‖ ^ 2 ≤ S ^ 2 := by gcongr
  have hr2 : r ^ 2 ≤ S ^ 2 := by gcongr
  have hWS : |W| ≤ S ^ 2 := by
    rw [hW, abs_le]; constructor <;> nlinarith [sq_nonneg ‖o‖, sq_nonneg r]
  have co : ∀ (p : E 2) (i : Fin 2), |p i| ≤ ‖p‖ := fun p i => by
    have := PiLp.norm_apply_le p i
    rwa [Real.norm_eq_abs] at this
  obtain ⟨τ, hτ⟩ : ∃ τ, τ = 2 * δ + 24 * u := ⟨_, rfl⟩
  rw [← hτ] at hρD
  obtain ⟨sa1, sa2⟩ := cfp_sum h hu a ha
  obtain ⟨sb1, sb2⟩ := cfp_sum h hu b hb
  obtain ⟨sc1, sc2⟩ := cfp_sum h hu c hc
  obtain ⟨sa, hsa⟩ : ∃ sa, sa = fl (fl (a 0 * a 0) + fl (a 1 * a 1)) := ⟨_, rfl⟩
  obtain ⟨sb, hsb⟩ : ∃ sb, sb = fl (fl (b 0 * b 0) + fl (b 1 * b 1)) := ⟨_, rfl⟩
  obtain ⟨sc, hsc⟩ : ∃ sc, sc = fl (fl (c 0 * c 0) + fl (c 1 * c 1)) := ⟨_, rfl⟩
  rw [← hsa] at sa1 sa2
  rw [← hsb] at sb1 sb2
  rw [← hsc] at sc1 sc2
  have o1 : |(1 : ℝ)| ≤ 1 := by norm_num
  have A0 := (co a 0).trans ha
  have A1 := (co a 1).trans ha
  have B0 := (co b 0).trans hb
  have B1 := (co b 1).trans hb
  have C0 := (co c 0).trans hc
  have C1 := (co c 1).trans hc
  -- the four minors
  have m0 := hdet.le A0 B0 C0 A1 B1 C1 o1 o1 o1
  have m1 := cfp_minor hdet hu0 hτ sa1 sb1 sc1 sa2 sb2 sc2 A1 B1 C1 o1 o1 o1
  have m2 := cfp_minor hdet hu0 hτ sa1 sb1 sc1 sa2 sb2 sc2 A0 B0 C0 o1 o1 o1
  have m3 := cfp_minor hdet hu0 hτ sa1 sb1 sc1 sa2 sb2 sc2 A0 B0 C0 A1 B1 C1
  obtain ⟨M0, hM0⟩ : ∃ M, M = det (a 0) (a 1) 1 (b 0) (b 1) 1 (c 0) (c 1) 1 := ⟨_, rfl⟩
  obtain ⟨M1, hM1⟩ : ∃ M, M = det sa (a 1) 1 sb (b 1) 1 sc (c 1) 1 := ⟨_, rfl⟩
  obtain ⟨M2, hM2⟩ : ∃ M, M = det sa (a 0) 1 sb (b 0) 1 sc (c 0) 1 := ⟨_, rfl⟩
  obtain ⟨M3, hM3⟩ : ∃ M, M = det sa (a 0) (a 1) sb (b 0) (b 1) sc (c 0) (c 1) := ⟨_, rfl⟩
  rw [← hM0] at m0
  rw [← hM1] at m1
  rw [← hM2] at m2
  rw [← hM3] at m3
  have n0 : |M0 - D| ≤ ρ * |D| := by
    rw [hρD, hτ]
    have h1 : 0 ≤ δ * R ^ 2 := by positivity
    have h2 : 0 ≤ u * R ^ 2 := by positivity
    calc |M0 - D| = |M0 - (a 0 * (b 1 * 1 - 1 * c 1) - a 1 * (b 0 * 1 - 1 * c 0) + 1 * (b 0 * c 1 - b 1 * c 0))| := by
          rw [hD]; congr 1; ring
      _ ≤ _ := m0
      _ ≤ _ := by linarith
  have n1 : |M1 - 2 * o 0 * D| ≤ ρ * |D| * R := by
    rw [hρD]
    calc _ = _ := by
          congr 2; rw [ea, eb, ec, hD]; ring
      _ ≤ _ := m1
      _ = _ := by ring
  have n2 : |M2 - -(2 * o 1 * D)| ≤ ρ * |D| * R := by
    rw [hρD]
    calc _ = _ := by
          congr 2; rw [ea, eb, ec, hD]; ring
      _ ≤ _ := m2
      _ = _ := by ring
  have n3 : |M3 - W * D| ≤ ρ * |D| * R ^ 2 := by
    rw [hρD]
    calc _ = _ := by
          congr 2; rw [ea, eb, ec, hD]; ring
      _ ≤ _ := m3
      _ = _ := by ring
  have hRS : R ≤ S := by linarith
  have x1 := cfp_coord h hu (s := 1) (x := o 0) (S := S) harea hρ30 n0 n1 (by norm_num) (by field_simp) ((co o 0).trans ho) hRS huρ
  have x2 := cfp_coord h hu (s := -1) (x := o 1) (S := S) harea hρ30 n0 n2 (by norm_num) (by field_simp) ((co o 1).trans ho) hRS huρ
  rw [one_mul] at x1
  rw [neg_one_mul] at x2
  obtain ⟨x, hx⟩ : ∃ x, x = fl (fl (fl (1 / 2) * M1) / M0) := ⟨_, rfl⟩
  obtain ⟨y, hy⟩ : ∃ y, y = fl (fl (-fl (1 / 2) * M2) / M0) := ⟨_, rfl⟩
  rw [← hx] at x1
  rw [← hy] at x2
  have hWD : W * D / D = W := by field_simp
  have x3 := cfp_radicand h hu (S := S) harea hρ30 n0 n3 hR hRS ((co o 0).trans ho) ((co o 1).trans ho)
    (by rw [← norm_sq2]; exact ho2) (by rw [hWD]; exact hWS) x1 x2 huρ
  rw [hWD, ← norm_sq2, hW, add_sub_cancel] at x3
  obtain ⟨T, hT⟩ : ∃ T, T = fl (fl (fl (x * x) + fl (y * y)) + fl (M3 / M0)) := ⟨_, rfl⟩
  rw [← hT] at x3
  have hTpos : 0 < T := by
    have := (abs_le.mp x3).1
    have : 0 < r ^ 2 := by positivity
    linarith
  have hsq : 0 < √T := Real.sqrt_pos.mpr hTpos
  have hr' : 0 < fl √T := (h.rp √T).pos hsq
  refine ⟨vec2 x y, fl √T, ?_, hr', ?_, ?_⟩
  · have hrows : rows [a, b, c] = [[a 0, a 1], [b 0, b 1], [c 0, c 1]] := by simp [rows, arr2]
    have hnp : @newPoints ℝ (rounded fl) [[a 0, a 1], [b 0, b 1], [c 0, c 1]] = .ok (rows [a, b, c]) := by
      rw [← hrows]; exact newPoints_rd (by simp)
    have hn := circle_new_ok (fl := fl) (vec2 x y) hr'
    rw [arr_vec2] at hn ⊢
    have hsqrt : @mathSqrt ℝ (rounded fl) T = .ok (fl √T) := by
      simp only [mathSqrt, lt_rd, zero_rd, not_lt.mpr hTpos.le, decide_false, Bool.false_eq_true, if_false, sqrt_rd]
    simp only [Circle.fromPointsWith, new1D_rd, ok_bind]
    rw [arr2, arr2, arr2]
    simp only [hnp, ok_bind, hcol, Bool.false_eq_true, if_false, sq_rd, add_rd, ← hsa, ← hsb, ← hsc, one_rd, ← hM0, ← hM1, ← hM2,
      ← hM3, half_rd, mul_rd, div_rd, neg_rd, ← hx, ← hy, ← hT, hsqrt, hn]
  · rw [dist_eq_norm]
    apply le_of_sq_le_sq _ (by positivity)
    rw [norm_sq2]
    have e1 : (vec2 x y - o) 0 = x - o 0 := by simp [vec2]
    have e2 : (vec2 x y - o) 1 = y - o 1 := by simp [vec2]
    rw [e1, e2]
    have h1 := sq_le_sq' (abs_le.mp x1).1 (abs_le.mp x1).2
    have h2 := sq_le_sq' (abs_le.mp x2).1 (abs_le.mp x2).2
    have : 0 ≤ (ρ * S) ^ 2 := sq_nonneg _
    nlinarith
  · have e1 : |√T - r| ≤ 15 * (ρ * S ^ 2 / r) := by
      have := cc_dist (N := ρ * S ^ 2) (b := 15) hr hsq.le (by rw [Real.sq_sqrt hTpos.le]; exact x3)
      exact this
    have e2 := fl_near h e1
    rw [abs_of_pos hr] at e2
    obtain ⟨Q, hQ⟩ : ∃ Q, Q = ρ * S ^ 2 / r := ⟨_, rfl⟩
    have hQ0 : 0 ≤ Q := by rw [hQ]; positivity
    rw [← hQ] at e2
    have h1 : 8 * (u * r) ≤ Q := by
      rw [hQ, le_div_iff₀ hr]
      have : u * r ^ 2 ≤ u * S ^ 2 := mul_le_mul_of_nonneg_left hr2 hu0
      have := mul_le_mul_of_nonneg_right huρ (sq_nonneg S)
      linarith
    have h2 : u * Q ≤ 1 / 100 * Q := mul_le_mul_of_nonneg_right hu hQ0
    rw [show 16 * ρ * S ^ 2 / r = 16 * Q by rw [hQ]; ring]
    linarith

/-- C116: points found collinear raise `ValueError`, whatever the rounding and the determinant routine. -/
theorem C116_from_points_collinear [ext : NumpyExt ℝ] (det : ℝ → ℝ → ℝ → ℝ → ℝ → ℝ → ℝ → ℝ → ℝ → ℝ) (a b c : E 2) (tol : Option ℝ)
    (hcol : @Pts.areCollinear ℝ (rounded fl) ext tol (rows [a, b, c]) = .ok true) :
    ∃ msg, @Circle.fromPointsWith ℝ (rounded fl) ext det tol (arr a) (arr b) (arr c) = .error (.valueError msg) := by
  have hrows : rows [a, b, c] = [[a 0, a 1], [b 0, b 1], [c 0, c 1]] := by simp [rows, arr2]
  have hnp : @newPoints ℝ (rounded fl) [[a 0, a 1], [b 0, b 1], [c 0, c 1]] = .ok (rows [a, b, c]) := by
    rw [← hrows]; exact newPoints_rd (by simp)
  refine ⟨"The points must not be collinear.", ?_⟩
  simp only [Circle.fromPointsWith, new1D_rd, ok_bind]
  rw [arr2, arr2, arr2]
  simp only [hnp, ok_bind, hcol, if_true]

theorem det3_term (h : StdRounding u fl) (hu : u ≤ 1 / 100) {a x y P : ℝ} (hx : |a * x| ≤ P) (hy : |a * y| ≤ P) :
    |fl (a * fl (fl x - fl y)) - (a * x - a * y)| ≤ 11 * u * P := by
  have hu0 := h.nonneg
  have hP : 0 ≤ P := (abs_nonneg _).trans hx
  have e1 := diff_error_signed h zero_le_one (h.rp x) (h.rp y)
  have e2 := exp_eps_le2 h (k := 1 + 1) (by norm_num) (by linarith)
  have e3 : |fl (fl x - fl y) - (x - y)| ≤ 4 * u * (|x| + |y|) :=
    e1.trans (mul_le_mul_of_nonneg_right (by linarith) (by positivity))
  have e4 : |a * fl (fl x - fl y) - (a * x - a * y)| ≤ 8 * u * P := by
    rw [← mul_sub, ← mul_sub, abs_mul]
    calc |a| * |fl (fl x - fl y) - (x - y)| ≤ |a| * (4 * u * (|x| + |y|)) := mul_le_mul_of_nonneg_left e3 (abs_nonneg _)
      _ = 4 * u * (|a * x| + |a * y|) := by rw [abs_mul, abs_mul]; ring
      _ ≤ 4 * u * (P + P) := mul_le_mul_of_nonneg_left (add_le_add hx hy) (by linarith)
      _ = _ := by ring
  have e5 := fl_near h e4
  have e6 : |a * x - a * y| ≤ 2 * P := by have := abs_sub (a * x) (a * y); linarith
  have huP : u * P ≤ 1 / 100 * P := mul_le_mul_of_nonneg_right hu hP
  have e7 : u * (|a * x - a * y| + 8 * u * P) ≤ u * (2 * P + 8 * (1 / 100 * P)) := mul_le_mul_of_nonneg_left (by linarith) hu0
  have : 0 ≤ u * P := by positivity
  linarith

/-- C116: the closed form of the 3x3 determinant is a stable routine with `δ = 50 u`. -/
theorem C116_closed_form (h : StdRounding u fl) (hu : u ≤ 1 / 100) : StableDet3 (50 * u) (@Circle.det3 ℝ (rounded fl)) := by
  have hu0 := h.nonneg
  refine ⟨by linarith, fun a b c d e f g hh i => ?_⟩
  obtain ⟨X, hX⟩ : ∃ X, X = max |a| (max |d| |g|) := ⟨_, rfl⟩
  obtain ⟨Y, hY⟩ : ∃ Y, Y = max |b| (max |e| |hh|) := ⟨_, rfl⟩
  obtain ⟨Z, hZ⟩ : ∃ Z, Z = max |c| (max |f| |i|) := ⟨_, rfl⟩
  rw [← hX, ← hY, ← hZ]
  have xa : |a| ≤ X := by rw [hX]; simp
  have xd : |d| ≤ X := by rw [hX]; simp
  have xg : |g| ≤ X := by rw [hX]; simp
  have yb : |b| ≤ Y := by rw [hY]; simp
  have ye : |e| ≤ Y := by rw [hY]; simp
  have yh : |hh| ≤ Y := by rw [hY]; simp
  have zc : |c| ≤ Z := by rw [hZ]; simp
  have zf : |f| ≤ Z := by rw [hZ]; simp
  have zi : |i| ≤ Z := by rw [hZ]; simp
  have hX0 : 0 ≤ X := (abs_nonneg _).trans xa
  have hY0 : 0 ≤ Y := (abs_nonneg _).trans yb
  have hZ0 : 0 ≤ Z := (abs_nonneg _).trans zc
  obtain ⟨P, hP⟩ : ∃ P, P = X * Y * Z := ⟨_, rfl⟩
  have hP0 : 0 ≤ P := by rw [hP]; positivity
  have key : ∀ x y z : ℝ, |x| ≤ X → |y| ≤ Y → |z| ≤ Z → |x| * |y| * |z| ≤ P := fun x y z h1 h2 h3 => by
    rw [hP]; gcongr
  rw [← hP]
  have t1 := det3_term h hu (a := a) (x := e * i) (y := f * hh) (P := P)
    (by rw [abs_mul, abs_mul]; linarith [key a e i xa ye zi]) (by rw [abs_mul, abs_mul]; linarith [key a hh f xa yh zf])
  have t2 := det3_term h hu (a := b) (x := d * i) (y := f * g) (P := P)
    (by rw [abs_mul, abs_mul]; linarith [key d b i xd yb zi]) (by rw [abs_mul, abs_mul]; linarith [key g b f xg yb zf])
  have t3 := det3_term h hu (a := c) (x := d * hh) (y := e * g) (P := P)
    (by rw [abs_mul, abs_mul]; linarith [key d hh c xd yh zc]) (by rw [abs_mul, abs_mul]; linarith [key g e c xg ye zc])
  have b1 : |a * (e * i) - a * (f * hh)| ≤ 2 * P := by
    have := abs_sub (a * (e * i)) (a * (f * hh))
    rw [abs_mul, abs_mul, abs_mul, abs_mul] at this
    linarith [key a e i xa ye zi, key a hh f xa yh zf]
  have b2 : |b * (d * i) - b * (f * g)| ≤ 2 * P := by
    have := abs_sub (b * (d * i)) (b * (f * g))
    rw [abs_mul, abs_mul, abs_mul, abs_mul] at this
    linarith [key d b i xd yb zi, key g b f xg yb zf]
  have b3 : |c * (d * hh) - c * (e * g)| ≤ 2 * P := by
    have := abs_sub (c * (d * hh)) (c * (e * g))
    rw [abs_mul, abs_mul, abs_mul, abs_mul] at this
    linarith [key d hh c xd yh zc, key g e c xg ye zc]
  simp only [Circle.det3, mul_rd, sub_rd, add_rd]
  obtain ⟨A, hA⟩ : ∃ A, A = fl (a * fl (fl (e * i) - fl (f * hh))) := ⟨_, rfl⟩
  obtain ⟨B, hB⟩ : ∃ B, B = fl (b * fl (fl (d * i) - fl (f * g))) := ⟨_, rfl⟩
  obtain ⟨C, hC⟩ : ∃ C, C = fl (c * fl (fl (d * hh) - fl (e * g))) := ⟨_, rfl⟩
  rw [← hA] at t1 ⊢
  rw [← hB] at t2 ⊢
  rw [← hC] at t3 ⊢
  rw [← mul_sub] at t1 t2 t3 b1 b2 b3
  obtain ⟨A', hA'⟩ : ∃ A', A' = a * (e * i - f * hh) := ⟨_, rfl⟩
  obtain ⟨B', hB'⟩ : ∃ B', B' = b * (d * i - f * g) := ⟨_, rfl⟩
  obtain ⟨C', hC'⟩ : ∃ C', C' = c * (d * hh - e * g) := ⟨_, rfl⟩
  rw [← hA'] at t1 b1 ⊢
  rw [← hB'] at t2 b2 ⊢
  rw [← hC'] at t3 b3 ⊢
  have huP : u * P ≤ 1 / 100 * P := mul_le_mul_of_nonneg_right hu hP0
  have huP0 : 0 ≤ u * P := by positivity
  have s1 : |A - B - (A' - B')| ≤ 22 * u * P := by
    have := abs_sub (A - A') (B - B')
    rw [show A - A' - (B - B') = A - B - (A' - B') by ring] at this
    linarith
  have s2 := fl_near h s1
  have s3 : |A' - B'| ≤ 4 * P := by have := abs_sub A' B'; linarith
  have s4 : u * (|A' - B'| + 22 * u * P) ≤ u * (4 * P + 22 * (1 / 100 * P)) := mul_le_mul_of_nonneg_left (by linarith) hu0
  have s5 : |fl (A - B) + C - (A' - B' + C')| ≤ 38 * u * P := by
    have := abs_add_le (fl (A - B) - (A' - B')) (C - C')
    rw [show fl (A - B) - (A' - B') + (C - C') = fl (A - B) + C - (A' - B' + C') by ring] at this
    linarith
  have s6 := fl_near h s5
  have s7 : |A' - B' + C'| ≤ 6 * P := by have := abs_add_le (A' - B') C'; linarith
  have s8 : u * (|A' - B' + C'| + 38 * u * P) ≤ u * (6 * P + 38 * (1 / 100 * P)) := mul_le_mul_of_nonneg_left (by linarith) hu0
  linarith

/-- C116: `Circle.from_points(a, b, c)` with the default tolerance and the closed form of the determinants, for the vertices of a
triangle that is not thinner than the noise of `are_collinear` (`C105_triangle`). -/
theorem C116_from_points_default (h : StdRounding u fl) (hu : u ≤ 1 / 100) [ext : NumpyExt ℝ] [hS : StableNumpy η] {a b c o : E 2}
    {r R ρ : ℝ} (hao : a ∈ Metric.sphere o r) (hbo : b ∈ Metric.sphere o r) (hco : c ∈ Metric.sphere o r)
    (hr : 0 < r) (hRa : ‖a‖ ≤ R) (hRb : ‖b‖ ≤ R) (hRc : ‖c‖ ≤ R)
    (ha : ∀ l : ℝ, triangleNoise u η a b c < dist a (AffineMap.lineMap b c l))
    (hb : ∀ l : ℝ, triangleNoise u η a b c < dist b (AffineMap.lineMap c a l))
    (hc : ∀ l : ℝ, triangleNoise u η a b c < dist c (AffineMap.lineMap a b l))
    (harea : (b 0 - a 0) * (c 1 - a 1) - (c 0 - a 0) * (b 1 - a 1) ≠ 0)
    (hρ : ρ = 124 * u * R ^ 2 / |(b 0 - a 0) * (c 1 - a 1) - (c 0 - a 0) * (b 1 - a 1)|)
    (hsmall : 30 * ρ * (R + r) ^ 2 ≤ r ^ 2) :
    ∃ (o' : E 2) (r' : ℝ), @Circle.fromPoints ℝ (rounded fl) ext none (arr a) (arr b) (arr c) = .ok ⟨arr o', r'⟩ ∧ 0 < r' ∧
      dist o' o ≤ 4 * ρ * (R + r) ∧ |r' - r| ≤ 16 * ρ * (R + r) ^ 2 / r := by
  have hT := C105_triangle (η := η) h ha hb hc
  have hcol : @Pts.areCollinear ℝ (rounded fl) ext none (rows [a, b, c]) = .ok false := by
    have hrows : [arr a, arr b, arr c] = rows [a, b, c] := rfl
    simp only [Triangle.new, new1D_rd, ok_bind, length_arr, hrows, newPoints_rd (P := [a, b, c]) (by simp), decide_true, Bool.and_self,
      Bool.not_true, Bool.false_eq_true, if_false, bind_ok_iff] at hT
    obtain ⟨col, hcol, hT⟩ := hT
    cases col with
    | false => exact hcol
    | true => simp at hT
  have := C116_from_points h hu (C116_closed_form h hu) hao hbo hco hr hRa hRb hRc harea
    (by rw [hρ]; congr 2; ring) hsmall none hcol
  simpa only [@Circle.fromPoints_with ℝ (rounded fl)] using this

/-- The circle through `(0, 0)`, `(4, 0)`, `(0, 3)` in binary64: centre `(2, 1.5)` and radius `2.5`, up to `10⁻¹²`. -/
example (ext : NumpyExt ℝ) (h : @LawfulNumpy ext) : ∃ (o' : E 2) (r' : ℝ),
    @Circle.fromPoints ℝ (rounded (leftToRight (roundNearest 53))) ext none (arr (vec2 0 0)) (arr (vec2 4 0)) (arr (vec2 0 3)) =
      .ok ⟨arr o', r'⟩ ∧ dist o' (vec2 2 (3 / 2)) ≤ 1 / 10 ^ 12 ∧ |r' - 5 / 2| ≤ 1 / 10 ^ 11 := by
  have := @StableNumpy.of_lawful ext h
  have hn := noise_345.2
  have h1 : triangleNoise ((2 : ℝ)⁻¹ ^ 53) 0 (vec2 0 0) (vec2 4 0) (vec2 0 3) < 1 := lt_of_le_of_lt hn (by norm_num)
  have hs : StdRounding ((2 : ℝ)⁻¹ ^ 53) (leftToRight (roundNearest 53)) := by
    have := std53
    rwa [show (2 : ℝ) ^ (-(53 : ℕ) : ℤ) = (2 : ℝ)⁻¹ ^ 53 by norm_num] at this
  have hn' : ∀ x : E 2, x 0 ^ 2 + x 1 ^ 2 ≤ 16 → ‖x‖ ≤ 4 := fun x hx => by
    apply le_of_sq_le_sq _ (by norm_num)
    rw [norm_sq2]; linarith
  have hD : |((vec2 4 0 : E 2) 0 - (vec2 0 0 : E 2) 0) * ((vec2 0 3 : E 2) 1 - (vec2 0 0 : E 2) 1) -
      ((vec2 0 3 : E 2) 0 - (vec2 0 0 : E 2) 0) * ((vec2 4 0 : E 2) 1 - (vec2 0 0 : E 2) 1)| = 12 := by
    simp [vec2]; norm_num
  obtain ⟨o', r', e1, -, e2, e3⟩ := C116_from_points_default (η := 0) (a := vec2 0 0) (b := vec2 4 0) (c := vec2 0 3)
    (o := vec2 2 (3 / 2)) (r := 5 / 2) (R := 4) (ρ := 124 * (2 : ℝ)⁻¹ ^ 53 * 4 ^ 2 / 12) hs (by norm_num)
    (by rw [Metric.mem_sphere]; exact dist_vec2_of (by norm_num) (by norm_num))
    (by rw [Metric.mem_sphere]; exact dist_vec2_of (by norm_num) (by norm_num))
    (by rw [Metric.mem_sphere]; exact dist_vec2_of (by norm_num) (by norm_num)) (by norm_num)
    (hn' _ (by simp [vec2])) (hn' _ (by simp [vec2]; norm_num)) (hn' _ (by simp [vec2]; norm_num))
    (fun l => h1.trans (far_345 l).1) (fun l => h1.trans (far_345 l).2.1) (fun l => h1.trans (far_345 l).2.2)
    (by intro h0; rw [h0] at hD; norm_num at hD) (by rw [hD]) (by norm_num)
  refine ⟨o', r', e1, e2.trans (by norm_num), e3.trans (by norm_num)⟩

end SkSpatial
