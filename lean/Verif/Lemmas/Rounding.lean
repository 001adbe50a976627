import Mathlib.Analysis.SpecialFunctions.Log.Basic
import Verif.Lemmas.Rint
import Verif.Spec.Rounding
import Verif.Spec.Space
import Verif.Lemmas.Bridge
/-! # Rounding error analysis of the array primitives

Relative errors are measured on a logarithmic scale: `RP ε k a x` says `a = x * exp δ` with
`|δ| ≤ k ε`.  Products, quotients and square roots then simply add their errors.
-/

namespace SkSpatial

@[simp] theorem toFloats_rd (fl : Arith) (l : List ℝ) : @toFloats ℝ (rounded fl) l = l :=
  List.map_id l


/-- `a` is `x` up to `k` relative errors `exp (± ε)`. -/
def RP (ε k a x : ℝ) : Prop := ∃ δ, |δ| ≤ k * ε ∧ a = x * Real.exp δ

namespace RP
variable {ε k j a b x y : ℝ}

theorem refl (ε x : ℝ) : RP ε 0 x x := ⟨0, by simp, by simp⟩

theorem mono (hε : 0 ≤ ε) (h : RP ε k a x) (hk : k ≤ j) : RP ε j a x := by
  obtain ⟨δ, h1, h2⟩ := h
  exact ⟨δ, h1.trans (mul_le_mul_of_nonneg_right hk hε), h2⟩

theorem mul (h : RP ε k a x) (h' : RP ε j b y) : RP ε (k + j) (a * b) (x * y) := by
  obtain ⟨δ, h1, h2⟩ := h
  obtain ⟨δ', h1', h2'⟩ := h'
  refine ⟨δ + δ', (abs_add_le _ _).trans (by nlinarith), ?_⟩
  rw [h2, h2', Real.exp_add]; ring

theorem trans (h : RP ε k a x) (h' : RP ε j x y) : RP ε (k + j) a y := by
  obtain ⟨δ, h1, h2⟩ := h
  obtain ⟨δ', h1', h2'⟩ := h'
  refine ⟨δ + δ', (abs_add_le _ _).trans (by nlinarith), ?_⟩
  rw [h2, h2', Real.exp_add]; ring

theorem inv (h : RP ε k a x) : RP ε k a⁻¹ x⁻¹ := by
  obtain ⟨δ, h1, h2⟩ := h
  refine ⟨-δ, by rwa [abs_neg], ?_⟩
  rw [h2, Real.exp_neg, mul_inv]

theorem symm (h : RP ε k a x) : RP ε k x a := by
  obtain ⟨δ, h1, h2⟩ := h
  refine ⟨-δ, by rwa [abs_neg], ?_⟩
  rw [h2, mul_assoc, ← Real.exp_add]; simp

theorem div (h : RP ε k a x) (h' : RP ε j b y) : RP ε (k + j) (a / b) (x / y) := by
  rw [div_eq_mul_inv, div_eq_mul_inv]; exact h.mul h'.inv

theorem sqrt (h : RP ε k a x) (hx : 0 ≤ x) : RP ε (k / 2) (Real.sqrt a) (Real.sqrt x) := by
  obtain ⟨δ, h1, h2⟩ := h
  refine ⟨δ / 2, ?_, ?_⟩
  · rw [abs_div, abs_two]; linarith [h1, mul_comm k ε]
  · rw [h2, Real.sqrt_mul hx]
    congr 1
    rw [show Real.exp δ = Real.exp (δ / 2) ^ 2 by rw [← Real.exp_nat_mul]; congr 1; push_cast; ring]
    exact Real.sqrt_sq (Real.exp_pos _).le

theorem neg (h : RP ε k a x) : RP ε k (-a) (-x) := by
  obtain ⟨δ, h1, h2⟩ := h
  exact ⟨δ, h1, by rw [h2]; ring⟩

theorem abs (h : RP ε k a x) : RP ε k |a| |x| := by
  obtain ⟨δ, h1, h2⟩ := h
  exact ⟨δ, h1, by rw [h2, abs_mul, abs_of_pos (Real.exp_pos δ)]⟩

theorem eq_zero (h : RP ε k a x) : a = 0 ↔ x = 0 := by
  obtain ⟨δ, -, h2⟩ := h
  rw [h2]; simp [(Real.exp_pos δ).ne']

theorem nonneg (h : RP ε k a x) (hx : 0 ≤ x) : 0 ≤ a := by
  obtain ⟨δ, -, h2⟩ := h
  rw [h2]; positivity

theorem pos (h : RP ε k a x) (hx : 0 < x) : 0 < a := by
  obtain ⟨δ, -, h2⟩ := h
  rw [h2]; positivity

theorem le (h : RP ε k a x) (hx : 0 ≤ x) : a ≤ Real.exp (k * ε) * x := by
  obtain ⟨δ, h1, h2⟩ := h
  rw [h2, mul_comm]
  exact mul_le_mul_of_nonneg_right (Real.exp_le_exp.mpr ((le_abs_self δ).trans h1)) hx

theorem of_le (hx : 0 ≤ x) (h1 : a ≤ Real.exp (k * ε) * x) (h2 : x ≤ Real.exp (k * ε) * a)
    (hk : 0 ≤ k * ε) : RP ε k a x := by
  rcases hx.eq_or_lt with h0 | h0
  · subst h0
    have : a = 0 := by
      have he := Real.exp_pos (k * ε)
      have h3 : a ≤ 0 := by simpa using h1
      nlinarith
    exact ⟨0, by simpa using hk, by simp [this]⟩
  · have ha : 0 < a := by
      have he := Real.exp_pos (k * ε)
      by_contra hc
      push Not at hc
      nlinarith
    refine ⟨Real.log (a / x), ?_, ?_⟩
    · rw [abs_le]
      constructor
      · rw [neg_le, ← Real.log_inv, inv_div, Real.log_le_iff_le_exp (by positivity), div_le_iff₀ ha]
        exact h2
      · rw [Real.log_le_iff_le_exp (by positivity), div_le_iff₀ h0]; exact h1
    · rw [Real.exp_log (by positivity)]; field_simp

theorem le' (h : RP ε k a x) (hx : 0 ≤ x) : x ≤ Real.exp (k * ε) * a :=
  h.symm.le (h.nonneg hx)

theorem add (hk : 0 ≤ k * ε) (h : RP ε k a x) (h' : RP ε k b y) (hx : 0 ≤ x) (hy : 0 ≤ y) :
    RP ε k (a + b) (x + y) := by
  refine of_le (by positivity) ?_ ?_ hk
  · rw [mul_add]; exact add_le_add (h.le hx) (h'.le hy)
  · rw [mul_add]; exact add_le_add (h.le' hx) (h'.le' hy)

/-- `|exp δ - 1| ≤ exp |δ| - 1`. -/
theorem abs_exp_sub_one_le (δ : ℝ) : |Real.exp δ - 1| ≤ Real.exp |δ| - 1 := by
  rcases le_total 0 δ with h | h
  · rw [abs_of_nonneg h, abs_of_nonneg]; linarith [Real.add_one_le_exp δ]
  · rw [abs_of_nonpos h, abs_of_nonpos (by linarith [Real.exp_le_one_iff.mpr h])]
    have h1 : Real.exp δ * Real.exp (-δ) = 1 := by rw [← Real.exp_add]; simp
    have h2 := Real.exp_pos δ
    have h3 := Real.exp_pos (-δ)
    nlinarith [sq_nonneg (Real.exp δ - Real.exp (-δ)), sq_nonneg (Real.exp (-δ) - 1), sq_nonneg (Real.exp δ - 1)]

theorem abs_sub_le (h : RP ε k a x) : |a - x| ≤ (Real.exp (k * ε) - 1) * |x| := by
  obtain ⟨δ, h1, h2⟩ := h
  have : a - x = x * (Real.exp δ - 1) := by rw [h2]; ring
  rw [this, abs_mul, mul_comm]
  refine mul_le_mul_of_nonneg_right ((abs_exp_sub_one_le δ).trans ?_) (abs_nonneg _)
  have := Real.exp_le_exp.mpr h1
  linarith

end RP

/-! ### Rounding -/

namespace StdRounding
variable {u : ℝ} {fl : Arith}

/-- The logarithmic unit roundoff. -/
noncomputable def eps (u : ℝ) : ℝ := -Real.log (1 - u)

theorem eps_nonneg' (h0 : 0 ≤ u) (h1 : u < 1) : 0 ≤ eps u := by
  have := Real.log_nonpos (x := 1 - u) (by linarith) (by linarith)
  simp [eps, this]

theorem eps_nonneg (h : StdRounding u fl) : 0 ≤ eps u := eps_nonneg' h.nonneg h.lt_one

theorem rp_of_err (h0 : 0 ≤ u) (h1 : u < 1) {f : ℝ → ℝ} (hf : ∀ x, |f x - x| ≤ u * |x|) (x : ℝ) :
    RP (eps u) 1 (f x) x := by
  have hr := hf x
  rcases eq_or_ne x 0 with rfl | hx
  · have hz : f 0 = 0 := by simpa using hr
    rw [hz]; exact ⟨0, by simpa using eps_nonneg' h0 h1, by simp⟩
  · have hxa : 0 < |x| := abs_pos.mpr hx
    have h2 : |f x / x - 1| ≤ u := by
      rw [show f x / x - 1 = (f x - x) / x by field_simp, abs_div, div_le_iff₀ hxa]; exact hr
    rw [abs_le] at h2
    have hpos : 0 < f x / x := by linarith
    refine ⟨Real.log (f x / x), ?_, ?_⟩
    · rw [one_mul, abs_le, eps, neg_neg]
      refine ⟨Real.log_le_log (by linarith) (by linarith), ?_⟩
      rw [← Real.log_inv]
      refine Real.log_le_log hpos ?_
      rw [← one_div, le_div_iff₀ (by linarith)]
      nlinarith
    · rw [Real.exp_log hpos]; field_simp

theorem zero (h : StdRounding u fl) : fl 0 = 0 := by
  have := h.err 0
  simp at this; exact this

theorem rp (h : StdRounding u fl) (x : ℝ) : RP (eps u) 1 (fl x) x := rp_of_err h.nonneg h.lt_one h.err x

theorem eq_zero (h : StdRounding u fl) {x : ℝ} : fl x = 0 ↔ x = 0 := (h.rp x).eq_zero

theorem step (h : StdRounding u fl) {k a x : ℝ} (ha : RP (eps u) k a x) :
    RP (eps u) (k + 1) (fl a) x := by
  rw [add_comm]; exact (h.rp a).trans ha

/-- `exp (k eps) = (1 - u)^(-k)`. -/
theorem exp_eps' (h1 : u < 1) (k : ℝ) : Real.exp (k * eps u) = ((1 - u) ^ k)⁻¹ := by
  have : 0 < 1 - u := by linarith
  rw [Real.rpow_def_of_pos this, ← Real.exp_neg, eps]
  congr 1; ring

theorem exp_eps (h : StdRounding u fl) (k : ℝ) : Real.exp (k * eps u) = ((1 - u) ^ k)⁻¹ := exp_eps' h.lt_one k

theorem approxRel (h : StdRounding u fl) {k a x : ℝ} (ha : RP (eps u) k a x) (hx : 0 ≤ x) :
    ApproxRel u k a x := by
  have hp : 0 < (1 - u) ^ k := Real.rpow_pos_of_pos (by linarith [h.lt_one]) k
  have h1 := ha.le hx
  have h2 := ha.le' hx
  rw [h.exp_eps] at h1 h2
  constructor
  · rw [← le_inv_mul_iff₀ hp]; exact h2
  · rw [← le_inv_mul_iff₀ hp]; exact h1

/-! ### Sums -/

/-- A factor with `k` relative errors. -/
theorem factor_iff (h0 : 0 ≤ u) (h1 : u < 1) (k : ℕ) (t : ℝ) :
    ((1 - u) ^ k ≤ t ∧ (1 - u) ^ k * t ≤ 1) ↔ ∃ δ, |δ| ≤ k * eps u ∧ t = Real.exp δ := by
  have hu : 0 < 1 - u := by linarith
  have hp : 0 < (1 - u) ^ k := by positivity
  have he : Real.exp ((k : ℝ) * eps u) = ((1 - u) ^ k)⁻¹ := by rw [exp_eps' h1, Real.rpow_natCast]
  have hl : Real.log ((1 - u) ^ k) = -(k * eps u) := by rw [Real.log_pow, eps]; ring
  constructor
  · rintro ⟨a, b⟩
    have ht : 0 < t := lt_of_lt_of_le hp a
    refine ⟨Real.log t, ?_, (Real.exp_log ht).symm⟩
    rw [abs_le]
    constructor
    · rw [← hl]; exact Real.log_le_log hp a
    · rw [Real.log_le_iff_le_exp ht, he, ← one_div, le_div_iff₀ hp]; linarith [mul_comm t ((1 - u) ^ k)]
  · rintro ⟨δ, hδ, rfl⟩
    rw [abs_le] at hδ
    constructor
    · rw [← Real.exp_log hp, hl]; exact Real.exp_le_exp.mpr hδ.1
    · have := Real.exp_le_exp.mpr hδ.2
      rw [he] at this
      calc (1 - u) ^ k * Real.exp δ ≤ (1 - u) ^ k * ((1 - u) ^ k)⁻¹ := by gcongr
        _ = 1 := mul_inv_cancel₀ hp.ne'

/-- Backward stability on the logarithmic scale. -/
theorem backward_iff (h0 : 0 ≤ u) (h1 : u < 1) {k : ℕ} {l : List ℝ} {s : ℝ} :
    Backward u k l s ↔ ∃ l', List.Forall₂ (RP (eps u) k) l' l ∧ s = l'.sum := by
  constructor
  · rintro ⟨θ, hlen, hθ, rfl⟩
    refine ⟨_, ?_, rfl⟩
    rw [List.forall₂_iff_get]
    refine ⟨by simp [hlen], fun i i1 i2 => ?_⟩
    simp only [List.get_eq_getElem, List.getElem_zipWith]
    obtain ⟨δ, d1, d2⟩ := (factor_iff h0 h1 k _).mp (hθ (θ[i]'(by rw [hlen]; exact i2)) (List.getElem_mem _))
    exact ⟨δ, d1, by rw [d2]⟩
  · rintro ⟨l', hl, rfl⟩
    have : ∃ θ : List ℝ, θ.length = l.length ∧ (∀ t ∈ θ, ∃ δ, |δ| ≤ k * eps u ∧ t = Real.exp δ) ∧
        l' = List.zipWith (· * ·) l θ := by
      induction hl with
      | nil => exact ⟨[], rfl, by simp, rfl⟩
      | cons hab _ ih =>
        obtain ⟨θ, i1, i2, i3⟩ := ih
        obtain ⟨δ, d1, d2⟩ := hab
        refine ⟨Real.exp δ :: θ, by simp [i1], ?_, by simp [i3, d2]⟩
        intro t ht
        rcases List.mem_cons.mp ht with rfl | ht
        · exact ⟨δ, d1, rfl⟩
        · exact i2 t ht
    obtain ⟨θ, i1, i2, i3⟩ := this
    exact ⟨θ, i1, fun t ht => (factor_iff h0 h1 k t).mpr (i2 t ht), by rw [i3]⟩

theorem forall₂_perm {r : ℝ → ℝ → Prop} {l' l m : List ℝ} (h : List.Forall₂ r l' l) (hp : l.Perm m) :
    ∃ m', List.Forall₂ r m' m ∧ m'.sum = l'.sum := by
  obtain ⟨m', h1, h2⟩ := List.perm_comp_forall₂ hp.symm h.flip
  exact ⟨m', h1.flip, h2.sum_eq⟩

theorem forall₂_append {r : ℝ → ℝ → Prop} {l' l m' m : List ℝ} (h : List.Forall₂ r l' l) (h' : List.Forall₂ r m' m) :
    List.Forall₂ r (l' ++ m') (l ++ m) := by
  induction h with
  | nil => exact h'
  | cons h1 _ ih => exact .cons h1 ih

/-- Rounding the sum once more. -/
theorem forall₂_step (he : 0 ≤ eps u) {k j : ℝ} (hkj : k + 1 ≤ j) {l' l : List ℝ} (h : List.Forall₂ (RP (eps u) k) l' l) {a : ℝ}
    (ha : RP (eps u) 1 a l'.sum) : ∃ l'', List.Forall₂ (RP (eps u) j) l'' l ∧ a = l''.sum := by
  obtain ⟨δ, d1, d2⟩ := ha
  refine ⟨l'.map (· * Real.exp δ), ?_, by rw [d2, List.sum_map_mul_right, List.map_id']⟩
  rw [List.forall₂_map_left_iff]
  refine h.imp fun x y hxy => ?_
  have h1 : RP (eps u) 1 (x * Real.exp δ) x := ⟨δ, d1, rfl⟩
  exact (h1.trans hxy).mono he (by linarith)

theorem forall₂_mono (he : 0 ≤ eps u) {k j : ℝ} (hkj : k ≤ j) {l' l : List ℝ} (h : List.Forall₂ (RP (eps u) k) l' l) :
    List.Forall₂ (RP (eps u) j) l' l := h.imp fun _ _ hxy => hxy.mono he hkj

theorem sumOrder_len {f : ℝ → ℝ} {l : List ℝ} {s : ℝ} (h : SumOrder f l s) : 1 ≤ l.length := by
  induction h with
  | one | start => simp
  | add _ _ h1 h2 => rw [List.length_append]; omega
  | perm hp _ ih => rw [← hp.length_eq]; exact ih

theorem sumOrder_rp (h0 : 0 ≤ u) (h1 : u < 1) {f : ℝ → ℝ} (hf : ∀ x, |f x - x| ≤ u * |x|) {l : List ℝ} {s : ℝ}
    (h : SumOrder f l s) : ∃ l', List.Forall₂ (RP (eps u) l.length) l' l ∧ s = l'.sum := by
  have he := eps_nonneg' h0 h1
  have hrp := rp_of_err h0 h1 hf
  induction h with
  | one x => exact ⟨[x], .cons ((RP.refl _ x).mono he (by simp)) .nil, by simp⟩
  | start x =>
    refine ⟨[f (0 + x)], .cons ?_ .nil, by simp⟩
    have := hrp (0 + x)
    rw [zero_add] at this ⊢
    simpa using this
  | @add l m s t hl hm ihl ihm =>
    obtain ⟨l', a1, rfl⟩ := ihl
    obtain ⟨m', b1, rfl⟩ := ihm
    have n1 := sumOrder_len hl
    have n2 := sumOrder_len hm
    have n1' : (1 : ℝ) ≤ l.length := by exact_mod_cast n1
    have n2' : (1 : ℝ) ≤ m.length := by exact_mod_cast n2
    have h3 := hrp (l'.sum + m'.sum)
    rw [← List.sum_append] at h3 ⊢
    refine forall₂_step he (k := l.length + m.length - 1) (by push_cast [List.length_append]; linarith)
      (forall₂_append (forall₂_mono he (by linarith) a1) (forall₂_mono he (by linarith) b1)) h3
  | perm hp _ ih =>
    obtain ⟨l', a1, a2⟩ := ih
    obtain ⟨m', b1, b2⟩ := forall₂_perm a1 hp
    exact ⟨m', by rw [← hp.length_eq]; exact b1, by rw [a2, b2]⟩

theorem dotOrder_len {f : ℝ → ℝ} {l : List (ℝ × ℝ)} {s : ℝ} (h : DotOrder f l s) : 1 ≤ l.length := by
  induction h with
  | one | start | startFma | fma => simp
  | add _ _ h1 h2 => rw [List.length_append]; omega
  | perm hp _ ih => rw [← hp.length_eq]; exact ih

theorem dotOrder_rp (h0 : 0 ≤ u) (h1 : u < 1) {f : ℝ → ℝ} (hf : ∀ x, |f x - x| ≤ u * |x|) {l : List (ℝ × ℝ)} {s : ℝ}
    (h : DotOrder f l s) :
    ∃ l', List.Forall₂ (RP (eps u) (l.length + 1)) l' (l.map fun p => p.1 * p.2) ∧ s = l'.sum := by
  have he := eps_nonneg' h0 h1
  have hrp := rp_of_err h0 h1 hf
  induction h with
  | one x y => exact ⟨[f (x * y)], .cons ((hrp _).mono he (by simp)) .nil, by simp⟩
  | start x y =>
    refine ⟨[f (0 + f (x * y))], .cons ?_ .nil, by simp⟩
    have := (hrp (0 + f (x * y))).trans (by rw [zero_add]; exact hrp (x * y))
    exact this.mono he (by simp)
  | startFma x y =>
    refine ⟨[f (0 + x * y)], .cons ?_ .nil, by simp⟩
    have := hrp (0 + x * y)
    rw [zero_add] at this ⊢
    exact this.mono he (by simp)
  | @add l m s t hl hm ihl ihm =>
    obtain ⟨l', a1, rfl⟩ := ihl
    obtain ⟨m', b1, rfl⟩ := ihm
    have n1' : (1 : ℝ) ≤ l.length := by exact_mod_cast dotOrder_len hl
    have n2' : (1 : ℝ) ≤ m.length := by exact_mod_cast dotOrder_len hm
    have h3 := hrp (l'.sum + m'.sum)
    rw [← List.sum_append] at h3 ⊢
    rw [List.map_append]
    refine forall₂_step he (k := l.length + m.length) (by push_cast [List.length_append]; linarith)
      (forall₂_append (forall₂_mono he (by linarith) a1) (forall₂_mono he (by linarith) b1)) h3
  | @fma l s x y hl ih =>
    obtain ⟨l', a1, rfl⟩ := ih
    have h3 := hrp (l'.sum + x * y)
    rw [add_comm l'.sum, ← List.sum_cons] at h3 ⊢
    refine forall₂_step he (k := l.length + 1) (by push_cast [List.length_cons]; linarith) (.cons ?_ a1) h3
    exact (RP.refl _ _).mono he (by positivity)
  | perm hp _ ih =>
    obtain ⟨l', a1, a2⟩ := ih
    obtain ⟨m', b1, b2⟩ := forall₂_perm a1 (hp.map _)
    exact ⟨m', by rw [← hp.length_eq]; exact b1, by rw [a2, b2]⟩

/-- Every order of additions satisfies the laws. -/
theorem of_order (h0 : 0 ≤ u) (h1 : u < 1) (hf : ∀ x, |fl x - x| ≤ u * |x|) (hs0 : fl.sum [] = 0) (hd0 : fl.dot [] [] = 0)
    (hs : ∀ l, l ≠ [] → SumOrder fl.fl l (fl.sum l))
    (hd : ∀ a b, a.length = b.length → a ≠ [] → DotOrder fl.fl (a.zip b) (fl.dot a b)) : StdRounding u fl := by
  refine ⟨h0, h1, hf, fun l => ?_, fun a b hab => ?_⟩
  · rcases eq_or_ne l [] with rfl | hl
    · exact ⟨[], rfl, by simp, by simp [hs0]⟩
    · exact (backward_iff h0 h1).mpr (sumOrder_rp h0 h1 hf (hs l hl))
  · rcases eq_or_ne a [] with rfl | ha
    · have hb : b = [] := List.length_eq_zero_iff.mp (by simpa using hab.symm)
      subst hb
      exact ⟨[], rfl, by simp, by simp [hd0]⟩
    · obtain ⟨l', e1, e2⟩ := dotOrder_rp h0 h1 hf (hd a b hab ha)
      refine (backward_iff h0 h1).mpr ⟨l', ?_, e2⟩
      have e3 : (a.zip b).map (fun p => p.1 * p.2) = List.zipWith (· * ·) a b := by
        rw [List.zip, List.map_zipWith]
      rw [e3] at e1
      have e4 : (a.zip b).length = a.length := by simp [hab]
      rw [e4] at e1
      exact_mod_cast e1

theorem foldl_order {f : ℝ → ℝ} : ∀ (l m : List ℝ) (s : ℝ), SumOrder f m s →
    SumOrder f (m ++ l) (l.foldl (fun a b => f (a + b)) s)
  | [], m, s, h => by simpa using h
  | x :: l, m, s, h => by
    have := foldl_order l (m ++ [x]) _ (.add h (.one x))
    simpa using this

theorem foldl_dotOrder {f : ℝ → ℝ} : ∀ (a b : List ℝ) (m : List (ℝ × ℝ)) (s : ℝ), DotOrder f m s →
    DotOrder f (m ++ a.zip b) ((List.zipWith (fun x y => f (x * y)) a b).foldl (fun a b => f (a + b)) s)
  | [], _, m, s, h => by simpa using h
  | _ :: _, [], m, s, h => by simpa using h
  | x :: a, y :: b, m, s, h => by
    have := foldl_dotOrder a b (m ++ [(x, y)]) _ (.add h (.one x y))
    simpa using this

theorem leftToRight_dotOrder {f : ℝ → ℝ} {a b : List ℝ} (hab : a.length = b.length) (ha : a ≠ []) :
    DotOrder f (a.zip b) ((SkSpatial.leftToRight f).dot a b) := by
  cases a with
  | nil => exact absurd rfl ha
  | cons x a =>
    cases b with
    | nil => simp at hab
    | cons y b => exact foldl_dotOrder a b [(x, y)] _ (.start x y)

/-- Summing from left to right satisfies the laws. -/
theorem leftToRight {f : ℝ → ℝ} (h0 : 0 ≤ u) (h1 : u < 1) (hf : ∀ x, |f x - x| ≤ u * |x|) :
    StdRounding u (SkSpatial.leftToRight f) := by
  refine of_order h0 h1 hf rfl rfl ?_ ?_
  · intro l hl
    cases l with
    | nil => exact absurd rfl hl
    | cons x l => exact foldl_order l [x] _ (.start x)
  · exact fun a b hab ha => leftToRight_dotOrder hab ha

theorem forall₂_sum_abs {k : ℝ} {l l' : List ℝ} (hl : List.Forall₂ (RP (eps u) k) l l') :
    |l.sum - l'.sum| ≤ (Real.exp (k * eps u) - 1) * (l'.map abs).sum := by
  induction hl with
  | nil => simp
  | @cons x y l l' hxy _ ih =>
    simp only [List.sum_cons, List.map_cons]
    calc |x + l.sum - (y + l'.sum)| = |(x - y) + (l.sum - l'.sum)| := by ring_nf
      _ ≤ |x - y| + |l.sum - l'.sum| := abs_add_le _ _
      _ ≤ _ := by rw [mul_add]; exact add_le_add hxy.abs_sub_le ih

theorem forall₂_sum_rp (he : 0 ≤ eps u) {k : ℝ} (hk : 0 ≤ k) {l l' : List ℝ} (hl : List.Forall₂ (RP (eps u) k) l l')
    (hpos : ∀ y ∈ l', 0 ≤ y) : RP (eps u) k l.sum l'.sum := by
  induction hl with
  | nil => exact ⟨0, by simpa using mul_nonneg hk he, by simp⟩
  | @cons x y l l' hxy _ ih =>
    simp only [List.sum_cons]
    exact RP.add (mul_nonneg hk he) hxy (ih fun z hz => hpos z (by simp [hz])) (hpos y (by simp))
      (List.sum_nonneg fun z hz => hpos z (by simp [hz]))

theorem forall₂_trans {k j : ℝ} {l l' l'' : List ℝ} (h : List.Forall₂ (RP (eps u) k) l l')
    (h' : List.Forall₂ (RP (eps u) j) l' l'') : List.Forall₂ (RP (eps u) (j + k)) l l'' := by
  induction h generalizing l'' with
  | nil => cases h'; exact .nil
  | cons h1 _ ih =>
    cases h' with
    | cons h1' h2' => exact .cons (by rw [add_comm]; exact h1.trans h1') (ih h2')

theorem sumL_exists (h : StdRounding u fl) (l : List ℝ) :
    ∃ l', List.Forall₂ (RP (eps u) l.length) l' l ∧ @sumL ℝ (rounded fl) l = l'.sum :=
  (backward_iff h.nonneg h.lt_one).mp (h.sum l)

theorem sumL_abs (h : StdRounding u fl) {k : ℝ} (hk : 0 ≤ k) {l l' : List ℝ}
    (hl : List.Forall₂ (RP (eps u) k) l l') :
    |@sumL ℝ (rounded fl) l - l'.sum| ≤
      (Real.exp ((k + l.length) * eps u) - 1) * (l'.map abs).sum := by
  obtain ⟨m, h1, h2⟩ := h.sumL_exists l
  rw [h2]
  exact forall₂_sum_abs (forall₂_trans h1 hl)

theorem sumL_rp (h : StdRounding u fl) {k : ℝ} (hk : 0 ≤ k) {l l' : List ℝ}
    (hl : List.Forall₂ (RP (eps u) k) l l') (hpos : ∀ y ∈ l', 0 ≤ y) :
    RP (eps u) (k + l.length) (@sumL ℝ (rounded fl) l) l'.sum := by
  obtain ⟨m, h1, h2⟩ := h.sumL_exists l
  rw [h2]
  exact forall₂_sum_rp h.eps_nonneg (by positivity) (forall₂_trans h1 hl) hpos

/-! ### Vectors -/

/-- Every coordinate of `z` is that of `d` up to `k` relative errors. -/
def CRP {n : ℕ} (ε k : ℝ) (z d : E n) : Prop := ∀ i, RP ε k (z i) (d i)

variable {n : ℕ}

theorem CRP.refl (ε : ℝ) (x : E n) : CRP ε 0 x x := fun _ => RP.refl _ _

theorem vsub_rd (x y : E n) : ∃ z : E n, @vsub ℝ (rounded fl) (arr x) (arr y) = .ok (arr z) ∧
    ∀ i, z i = fl (x i - y i) := by
  refine ⟨WithLp.toLp 2 fun i => fl (x i - y i), ?_, fun i => rfl⟩
  simp only [vsub, broadcast2, length_arr, if_true, zipWith_arr]
  rfl

theorem vadd_rd (x y : E n) : ∃ z : E n, @vadd ℝ (rounded fl) (arr x) (arr y) = .ok (arr z) ∧
    ∀ i, z i = fl (x i + y i) := by
  refine ⟨WithLp.toLp 2 fun i => fl (x i + y i), ?_, fun i => rfl⟩
  simp only [vadd, broadcast2, length_arr, if_true, zipWith_arr]
  rfl

theorem smul_rd (t : ℝ) (x : E n) : ∃ z : E n, @smul ℝ (rounded fl) t (arr x) = arr z ∧
    ∀ i, z i = fl (t * x i) := by
  refine ⟨WithLp.toLp 2 fun i => fl (t * x i), ?_, fun i => rfl⟩
  apply List.ext_getElem <;> simp [smul, arr, mul_rd]

theorem sdiv_rd (t : ℝ) (x : E n) : ∃ z : E n, @sdiv ℝ (rounded fl) (arr x) t = arr z ∧
    ∀ i, z i = fl (x i / t) := by
  refine ⟨WithLp.toLp 2 fun i => fl (x i / t), ?_, fun i => rfl⟩
  apply List.ext_getElem <;> simp [sdiv, arr, div_rd]

theorem wrapped_rd (m : String) (l : List ℝ) : @wrapped ℝ (rounded fl) m l = .ok l := by
  simp [wrapped, isFinite_rd]

theorem new1D_rd [NeZero n] (x : E n) : @new1D ℝ (rounded fl) (arr x) = .ok (arr x) := by
  have h : (arr x).length ≠ 0 := by simp [NeZero.ne n]
  have h2 : (arr x).all (@PyNum.isFinite ℝ (rounded fl)) = true := by simp [isFinite_rd]
  simp only [new1D, h, if_false, h2]
  rfl

theorem dotv_exists (h : StdRounding u fl) {k j : ℝ} {z d w e : E n} (hz : CRP (eps u) k z d) (hw : CRP (eps u) j w e) :
    ∃ l, List.Forall₂ (RP (eps u) (k + j + 1 + n)) l (List.ofFn fun i => d i * e i) ∧
      @dotv ℝ (rounded fl) (arr z) (arr w) = l.sum := by
  obtain ⟨l, h1, h2⟩ := (backward_iff h.nonneg h.lt_one).mp (h.dot (arr z) (arr w) (by simp))
  refine ⟨l, ?_, h2⟩
  have h3 : List.Forall₂ (RP (eps u) (k + j)) (List.zipWith (· * ·) (arr z) (arr w)) (List.ofFn fun i => d i * e i) := by
    rw [zipWith_arr, List.forall₂_iff_get]
    refine ⟨by simp, fun i h1 h2 => ?_⟩
    simp only [List.get_eq_getElem, List.getElem_ofFn]
    exact (hz _).mul (hw _)
  have := forall₂_trans h1 h3
  rw [length_arr] at this
  have e : k + j + (((n + 1 : ℕ)) : ℝ) = k + j + 1 + n := by push_cast; ring
  rwa [e] at this

/-- The rounded dot product of perturbed vectors. -/
theorem dotv_abs (h : StdRounding u fl) {k j : ℝ} (hk : 0 ≤ k) (hj : 0 ≤ j) {z d w e : E n}
    (hz : CRP (eps u) k z d) (hw : CRP (eps u) j w e) :
    |@dotv ℝ (rounded fl) (arr z) (arr w) - inner ℝ d e| ≤
      (Real.exp ((k + j + 1 + n) * eps u) - 1) * ∑ i, |d i * e i| := by
  obtain ⟨l, h1, h2⟩ := h.dotv_exists hz hw
  have := forall₂_sum_abs h1
  simp only [List.sum_ofFn, List.map_ofFn] at this
  have he : (inner ℝ d e : ℝ) = ∑ i, d i * e i := by
    simp only [PiLp.inner_apply]
    exact Finset.sum_congr rfl fun i _ => by simp [mul_comm]
  rw [he, h2]
  exact this

theorem sum_abs_le (d e : E n) : ∑ i, |d i * e i| ≤ ‖d‖ * ‖e‖ := by
  have h1 : (inner ℝ (WithLp.toLp 2 fun i => |d i| : E n) (WithLp.toLp 2 fun i => |e i| : E n) : ℝ) =
      ∑ i, |d i * e i| := by
    simp only [PiLp.inner_apply]
    exact Finset.sum_congr rfl fun i _ => by simp [mul_comm, abs_mul]
  have h2 : ∀ x : E n, ‖(WithLp.toLp 2 fun i => |x i| : E n)‖ = ‖x‖ := by
    intro x; simp [EuclideanSpace.norm_eq]
  rw [← h1, ← h2 d, ← h2 e]
  exact real_inner_le_norm _ _

theorem dotv_abs' (h : StdRounding u fl) {k j : ℝ} (hk : 0 ≤ k) (hj : 0 ≤ j) {z d w e : E n}
    (hz : CRP (eps u) k z d) (hw : CRP (eps u) j w e) :
    |@dotv ℝ (rounded fl) (arr z) (arr w) - inner ℝ d e| ≤
      (Real.exp ((k + j + 1 + n) * eps u) - 1) * (‖d‖ * ‖e‖) := by
  refine (h.dotv_abs hk hj hz hw).trans (mul_le_mul_of_nonneg_left (sum_abs_le d e) ?_)
  have := h.eps_nonneg
  linarith [Real.one_le_exp (show 0 ≤ (k + j + 1 + n) * eps u by positivity)]

/-- The rounded squared norm of a perturbed vector. -/
theorem dotv_self_rp (h : StdRounding u fl) {k : ℝ} (hk : 0 ≤ k) {z d : E n}
    (hz : CRP (eps u) k z d) :
    RP (eps u) (2 * k + 1 + n) (@dotv ℝ (rounded fl) (arr z) (arr z)) (‖d‖ ^ 2) := by
  obtain ⟨l, h1, h2⟩ := h.dotv_exists hz hz
  have := forall₂_sum_rp h.eps_nonneg (by positivity) h1 (by
    intro y hy
    obtain ⟨i, rfl⟩ := List.mem_ofFn.mp hy
    exact mul_self_nonneg _)
  simp only [List.sum_ofFn] at this
  have he : ‖d‖ ^ 2 = ∑ i, d i * d i := by
    rw [EuclideanSpace.norm_sq_eq]
    exact Finset.sum_congr rfl fun i _ => by simp [pow_two]
  rw [he, two_mul, h2]
  exact this

/-- The rounded norm of a perturbed vector. -/
theorem normv_rp (h : StdRounding u fl) {k : ℝ} (hk : 0 ≤ k) {z d : E n} (hz : CRP (eps u) k z d) :
    RP (eps u) (k + (n + 3) / 2) (@normv ℝ (rounded fl) (arr z)) ‖d‖ := by
  have h1 := (h.dotv_self_rp hk hz).sqrt (by positivity)
  rw [Real.sqrt_sq (norm_nonneg d)] at h1
  have h2 := h.step h1
  have e : (2 * k + 1 + n) / 2 + 1 = k + (n + 3) / 2 := by ring
  rw [e] at h2
  have e2 : @normv ℝ (rounded fl) (arr z) = fl (Real.sqrt (@dotv ℝ (rounded fl) (arr z) (arr z))) := by
    unfold normv
    rw [@toFloats_rd fl, sqrt_rd]
  rw [e2]
  exact h2

end StdRounding

/-! ### `roundNearest` satisfies the standard model -/

section RoundNearest
variable {p : ℕ}

theorem roundNearest_zero : roundNearest p 0 = 0 := by
  simp [roundNearest, rintReal]

theorem roundNearest_neg (x : ℝ) : roundNearest p (-x) = -roundNearest p x := by
  simp only [roundNearest, abs_neg, neg_mul, rintReal_neg, neg_div]

/-- Rounding to nearest with `p` bits has relative error at most `2^(-p)`. -/
theorem roundNearest_std (hp : 1 ≤ p) : StdRounding ((2 : ℝ) ^ (-(p : ℤ))) (leftToRight (roundNearest p)) := by
  refine StdRounding.leftToRight (by positivity) ?_ fun x => ?_
  · rw [zpow_neg, zpow_natCast]
    exact inv_lt_one_of_one_lt₀ (one_lt_pow₀ (by norm_num) (by omega))
  · rcases eq_or_ne x 0 with rfl | hx
    · simp [roundNearest_zero]
    · have hxa : 0 < |x| := abs_pos.mpr hx
      obtain ⟨e, he⟩ : ∃ e, e = Int.log 2 |x| := ⟨_, rfl⟩
      have h1 : (2 : ℝ) ^ e ≤ |x| := by
        rw [he]; exact_mod_cast Int.zpow_log_le_self (b := 2) (by norm_num) hxa
      unfold roundNearest
      rw [← he]
      obtain ⟨s, hs⟩ : ∃ s, s = (2 : ℝ) ^ ((p : ℤ) - 1 - e) := ⟨_, rfl⟩
      have hs0 : 0 < s := by rw [hs]; positivity
      rw [← hs]
      obtain ⟨m, hm, hm2, -⟩ := rintReal_spec (x * s)
      rw [hm, show (m : ℝ) / s - x = (m - x * s) / s by field_simp, abs_div, abs_of_pos hs0,
        div_le_iff₀ hs0]
      have h2 : (2 : ℝ) ^ (-(p : ℤ)) * (2 : ℝ) ^ e * s = 1 / 2 := by
        rw [hs, ← zpow_add₀ (by norm_num), ← zpow_add₀ (by norm_num)]
        rw [show -(p : ℤ) + e + ((p : ℤ) - 1 - e) = -1 by ring]
        norm_num
      calc |(m : ℝ) - x * s| ≤ 1 / 2 := hm2
        _ = (2 : ℝ) ^ (-(p : ℤ)) * (2 : ℝ) ^ e * s := h2.symm
        _ ≤ (2 : ℝ) ^ (-(p : ℤ)) * |x| * s := by gcongr

theorem roundNearest_mono (hp : 1 ≤ p) : Monotone (roundNearest p) := by
  have nonneg : ∀ x, 0 ≤ x → 0 ≤ roundNearest p x := fun x hx =>
    ((roundNearest_std hp).rp x).nonneg hx
  have pos : ∀ x y, 0 < x → x ≤ y → roundNearest p x ≤ roundNearest p y := by
    intro x y hx hxy
    have hy : 0 < y := hx.trans_le hxy
    unfold roundNearest
    rw [abs_of_pos hx, abs_of_pos hy]
    have hle : Int.log 2 x ≤ Int.log 2 y := Int.log_mono_right hx hxy
    have u1 : x < (2 : ℝ) ^ (Int.log 2 x + 1) := by
      exact_mod_cast Int.lt_zpow_succ_log_self (b := 2) (by norm_num) x
    have l1 : (2 : ℝ) ^ (Int.log 2 y) ≤ y := by
      exact_mod_cast Int.zpow_log_le_self (b := 2) (by norm_num) hy
    obtain ⟨e, he⟩ : ∃ e, e = Int.log 2 x := ⟨_, rfl⟩
    obtain ⟨f, hf⟩ : ∃ f, f = Int.log 2 y := ⟨_, rfl⟩
    rw [← he, ← hf] at hle
    rw [← he] at u1 ⊢
    rw [← hf] at l1 ⊢
    rcases hle.eq_or_lt with h | h
    · rw [h]
      have : 0 < (2 : ℝ) ^ ((p : ℤ) - 1 - f) := by positivity
      gcongr
      exact rintReal_mono (by gcongr)
    · have a : rintReal (x * (2 : ℝ) ^ ((p : ℤ) - 1 - e)) / (2 : ℝ) ^ ((p : ℤ) - 1 - e) ≤
          (2 : ℝ) ^ (e + 1) := by
        rw [div_le_iff₀ (by positivity), ← zpow_add₀ (by norm_num),
          show e + 1 + ((p : ℤ) - 1 - e) = p by ring, zpow_natCast]
        have : x * (2 : ℝ) ^ ((p : ℤ) - 1 - e) ≤ ((2 ^ p : ℤ) : ℝ) := by
          calc x * (2 : ℝ) ^ ((p : ℤ) - 1 - e) ≤ (2 : ℝ) ^ (e + 1) * (2 : ℝ) ^ ((p : ℤ) - 1 - e) := by
                gcongr
            _ = _ := by
                rw [← zpow_add₀ (by norm_num), show e + 1 + ((p : ℤ) - 1 - e) = p by ring]; simp
        have := rintReal_mono this
        rw [rintReal_int] at this
        simpa using this
      have b : (2 : ℝ) ^ f ≤
          rintReal (y * (2 : ℝ) ^ ((p : ℤ) - 1 - f)) / (2 : ℝ) ^ ((p : ℤ) - 1 - f) := by
        have hq : ((p - 1 : ℕ) : ℤ) = (p : ℤ) - 1 := by omega
        rw [le_div_iff₀ (by positivity), ← zpow_add₀ (by norm_num),
          show f + ((p : ℤ) - 1 - f) = ((p - 1 : ℕ) : ℤ) by rw [hq]; ring, zpow_natCast]
        have : ((2 ^ (p - 1) : ℤ) : ℝ) ≤ y * (2 : ℝ) ^ ((p : ℤ) - 1 - f) := by
          calc ((2 ^ (p - 1) : ℤ) : ℝ) = (2 : ℝ) ^ f * (2 : ℝ) ^ ((p : ℤ) - 1 - f) := by
                rw [← zpow_add₀ (by norm_num),
                  show f + ((p : ℤ) - 1 - f) = ((p - 1 : ℕ) : ℤ) by rw [hq]; ring]; simp
            _ ≤ _ := by gcongr
        have := rintReal_mono this
        rw [rintReal_int] at this
        simpa using this
      refine a.trans (le_trans ?_ b)
      exact zpow_le_zpow_right₀ (by norm_num) (by omega)
  intro x y hxy
  rcases lt_or_ge 0 x with hx | hx
  · exact pos x y hx hxy
  · rcases lt_or_ge y 0 with hy | hy
    · have := pos (-y) (-x) (by linarith) (by linarith)
      rw [roundNearest_neg, roundNearest_neg] at this
      linarith
    · have h1 := nonneg y hy
      have h2 := nonneg (-x) (by linarith)
      rw [roundNearest_neg] at h2
      linarith

end RoundNearest

end SkSpatial
