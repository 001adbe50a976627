import Verif.Spec.Scaling
import Verif.Lemmas.Rounding
import Verif.Lemmas.RoundNearest
import Verif.Props.Rounding
/-! # Lemmas for exact scaling: the relation "is a multiple of" is preserved by every operation -/

namespace SkSpatial
namespace Scaling
open StdRounding

variable {α β γ δ : Type} {R : α → β → Prop} {S : γ → δ → Prop}

theorem so_ok {x : α} {y : β} (h : R x y) : SameOutcome R (.ok x) (.ok y) := h
theorem so_err {e : Err} : SameOutcome R (.error e) (.error e) := rfl

theorem so_bind {a : Res α} {b : Res β} {f : α → Res γ} {g : β → Res δ} (h : SameOutcome R a b)
    (hf : ∀ x y, R x y → SameOutcome S (f x) (g y)) : SameOutcome S (a >>= f) (b >>= g) := by
  cases a with
  | error e => cases b with
    | error e' => exact h
    | ok y => exact h.elim
  | ok x => cases b with
    | error e' => exact h.elim
    | ok y => exact hf x y h

theorem so_mono {a : Res α} {b : Res β} {R' : α → β → Prop} (h : SameOutcome R a b) (hR : ∀ x y, R x y → R' x y) :
    SameOutcome R' a b := by
  cases a with
  | error e => cases b with
    | error e' => exact h
    | ok y => exact h.elim
  | ok x => cases b with
    | error e' => exact h.elim
    | ok y => exact hR x y h

theorem so_ite {c c' : Bool} {a a' : Res α} {b b' : Res β} (hc : c = c') (ha : SameOutcome R a b) (hb : SameOutcome R a' b') :
    SameOutcome R (if c = true then a else a') (if c' = true then b else b') := by
  subst hc; cases c <;> simpa

theorem so_mapM {f : α → Res γ} {g : β → Res δ} : ∀ {l : List α} {m : List β}, List.Forall₂ R l m →
    (∀ x y, R x y → SameOutcome S (f x) (g y)) → SameOutcome (List.Forall₂ S) (l.mapM f) (m.mapM g)
  | _, _, .nil, _ => by simp only [List.mapM_nil]; exact .nil
  | _, _, .cons h t, hf => by
    simp only [List.mapM_cons]
    exact so_bind (hf _ _ h) fun a b hab => so_bind (so_mapM t hf) fun l m hlm => so_ok (.cons hab hlm)

/-- Multiplication by `e` commutes with the arithmetic. -/
structure Sc (A : Arith) (e : ℝ) : Prop where
  ne : e ≠ 0
  fl : ∀ x, A.fl (e * x) = e * A.fl x
  sum : ∀ l : List ℝ, A.sum (l.map fun x => e * x) = e * A.sum l
  dot : ∀ a b : List ℝ, A.dot (a.map fun x => e * x) b = e * A.dot a b
  byP : A.ByProducts
  odd : ∀ x, A.fl (-x) = -A.fl x

variable {A : Arith} {e f : ℝ}

theorem Sc.mul (he : Sc A e) (hf : Sc A f) : Sc A (e * f) where
  ne := mul_ne_zero he.ne hf.ne
  fl x := by rw [mul_assoc, he.fl, hf.fl, mul_assoc]
  sum l := by
    have : (l.map fun x => e * f * x) = (l.map fun x => f * x).map fun x => e * x := by simp [mul_assoc]
    rw [this, he.sum, hf.sum, mul_assoc]
  dot a b := by
    have : (a.map fun x => e * f * x) = (a.map fun x => f * x).map fun x => e * x := by simp [mul_assoc]
    rw [this, he.dot, hf.dot, mul_assoc]
  byP := he.byP
  odd := he.odd

theorem Sc.inv (he : Sc A e) : Sc A e⁻¹ where
  ne := inv_ne_zero he.ne
  fl x := by
    have := he.fl (e⁻¹ * x)
    rw [mul_inv_cancel_left₀ he.ne] at this
    rw [this, inv_mul_cancel_left₀ he.ne]
  sum l := by
    have := he.sum (l.map fun x => e⁻¹ * x)
    simp only [List.map_map, Function.comp_def, mul_inv_cancel_left₀ he.ne, List.map_id'] at this
    rw [this, inv_mul_cancel_left₀ he.ne]
  dot a b := by
    have := he.dot (a.map fun x => e⁻¹ * x) b
    simp only [List.map_map, Function.comp_def, mul_inv_cancel_left₀ he.ne, List.map_id'] at this
    rw [this, inv_mul_cancel_left₀ he.ne]
  byP := he.byP
  odd := he.odd

theorem Sc.div (he : Sc A e) (hf : Sc A f) : Sc A (e / f) := by rw [div_eq_mul_inv]; exact he.mul hf.inv

theorem sc_pow (h : A.ExactScaling) (k : ℤ) : Sc A (2 ^ k) where
  ne := by positivity
  fl := h.fl k
  sum := h.sum k
  dot := h.dot k
  byP := h.byProducts
  odd := h.fl_neg

theorem sc_neg (h : A.ExactScaling) : Sc A (-1) where
  ne := by norm_num
  fl x := by simpa using h.fl_neg x
  sum l := by simpa using h.sum_neg l
  dot a b := by simpa using h.dot_neg a b
  byP := h.byProducts
  odd := h.fl_neg

theorem sc_one (h : A.ExactScaling) : Sc A 1 := by simpa using sc_pow h 0

theorem Sc.zero (he : Sc A e) : A.fl 0 = 0 := by
  have := he.odd 0
  simp at this; linarith

/-- Signs for the axes. -/
structure Sg (A : Arith) {n : ℕ} (s : Fin n → ℝ) : Prop where
  sq : ∀ i, s i * s i = 1
  sc : ∀ i, Sc A (s i)

/-- The second array is the first one with the signs `s`, times `e`. -/
def VR {n : ℕ} (s : Fin n → ℝ) (e : ℝ) (v w : List ℝ) : Prop :=
  ∃ x : E n, v = arr x ∧ w = arr (WithLp.toLp 2 fun i => e * (s i * x i) : E n)

/-- The second number is `e` times the first. -/
def SR (e : ℝ) (x y : ℝ) : Prop := y = e * x

variable {n : ℕ} {s : Fin n → ℝ}

theorem vr_mk {x y : E n} (h : ∀ i, y i = e * (s i * x i)) : VR s e (arr x) (arr y) :=
  ⟨x, rfl, by congr 1; ext i; exact h i⟩

theorem VR.length {v w : List ℝ} (h : VR s e v w) : v.length = n ∧ w.length = n := by
  obtain ⟨x, rfl, rfl⟩ := h; simp

/-! ### Arrays -/

theorem vsub_vr (hs : Sg A s) (he : Sc A e) {a a' b b' : List ℝ} (ha : VR s e a a') (hb : VR s e b b') :
    SameOutcome (VR s e) (@vsub ℝ (rounded A) a b) (@vsub ℝ (rounded A) a' b') := by
  obtain ⟨x, rfl, rfl⟩ := ha
  obtain ⟨y, rfl, rfl⟩ := hb
  obtain ⟨z, h1, h2⟩ := vsub_rd (fl := A) x y
  obtain ⟨w, h3, h4⟩ := vsub_rd (fl := A) (WithLp.toLp 2 fun i => e * (s i * x i) : E n) (WithLp.toLp 2 fun i => e * (s i * y i))
  rw [h1, h3]
  refine so_ok (vr_mk fun i => ?_)
  rw [h4, h2]
  show A.fl (e * (s i * x i) - e * (s i * y i)) = _
  rw [← mul_sub, ← mul_sub, he.fl, (hs.sc i).fl]

theorem vadd_vr (hs : Sg A s) (he : Sc A e) {a a' b b' : List ℝ} (ha : VR s e a a') (hb : VR s e b b') :
    SameOutcome (VR s e) (@vadd ℝ (rounded A) a b) (@vadd ℝ (rounded A) a' b') := by
  obtain ⟨x, rfl, rfl⟩ := ha
  obtain ⟨y, rfl, rfl⟩ := hb
  obtain ⟨z, h1, h2⟩ := vadd_rd (fl := A) x y
  obtain ⟨w, h3, h4⟩ := vadd_rd (fl := A) (WithLp.toLp 2 fun i => e * (s i * x i) : E n) (WithLp.toLp 2 fun i => e * (s i * y i))
  rw [h1, h3]
  refine so_ok (vr_mk fun i => ?_)
  rw [h4, h2]
  show A.fl (e * (s i * x i) + e * (s i * y i)) = _
  rw [← mul_add, ← mul_add, he.fl, (hs.sc i).fl]

theorem smul_vr (hs : Sg A s) (he : Sc A e) (hf : Sc A f) {t t' : ℝ} {b b' : List ℝ} (ht : SR e t t') (hb : VR s f b b') :
    VR s (e * f) (@smul ℝ (rounded A) t b) (@smul ℝ (rounded A) t' b') := by
  obtain ⟨y, rfl, rfl⟩ := hb
  obtain ⟨z, h1, h2⟩ := smul_rd (fl := A) t y
  obtain ⟨w, h3, h4⟩ := smul_rd (fl := A) t' (WithLp.toLp 2 fun i => f * (s i * y i) : E n)
  rw [h1, h3]
  refine vr_mk fun i => ?_
  rw [h4, h2, ht]
  show A.fl (e * t * (f * (s i * y i))) = _
  rw [show e * t * (f * (s i * y i)) = (e * f) * (s i * (t * y i)) by ring, (he.mul hf).fl, (hs.sc i).fl]

theorem sdiv_vr (hs : Sg A s) (he : Sc A e) (hf : Sc A f) {t t' : ℝ} {b b' : List ℝ} (ht : SR e t t') (hb : VR s f b b') :
    VR s (f / e) (@sdiv ℝ (rounded A) b t) (@sdiv ℝ (rounded A) b' t') := by
  obtain ⟨y, rfl, rfl⟩ := hb
  obtain ⟨z, h1, h2⟩ := sdiv_rd (fl := A) t y
  obtain ⟨w, h3, h4⟩ := sdiv_rd (fl := A) t' (WithLp.toLp 2 fun i => f * (s i * y i) : E n)
  rw [h1, h3]
  refine vr_mk fun i => ?_
  rw [h4, h2, ht]
  show A.fl (f * (s i * y i) / (e * t)) = _
  rw [show f * (s i * y i) / (e * t) = (f / e) * (s i * (y i / t)) by
    rw [mul_div_mul_comm, mul_div_assoc], (hf.div he).fl, (hs.sc i).fl]

theorem new1D_vr {v w : List ℝ} (h : VR s e v w) :
    SameOutcome (VR s e) (@new1D ℝ (rounded A) v) (@new1D ℝ (rounded A) w) := by
  have hl := h.length
  simp only [new1D, hl.1, hl.2]
  by_cases hn : n = 0
  · simp only [hn, if_true]; exact so_err
  · simp only [hn, if_false]
    simpa using so_ok h

theorem wrapped_vr (m : String) {v w : List ℝ} (h : VR s e v w) :
    SameOutcome (VR s e) (@wrapped ℝ (rounded A) m v) (@wrapped ℝ (rounded A) m w) := by
  rw [StdRounding.wrapped_rd, StdRounding.wrapped_rd]
  exact so_ok h

theorem dotv_vr (hs : Sg A s) (he : Sc A e) (hf : Sc A f) {a a' b b' : List ℝ} (ha : VR s e a a') (hb : VR s f b b') :
    SR (e * f) (@dotv ℝ (rounded A) a b) (@dotv ℝ (rounded A) a' b') := by
  obtain ⟨x, rfl, rfl⟩ := ha
  obtain ⟨y, rfl, rfl⟩ := hb
  show A.dot _ _ = _ * A.dot _ _
  rw [← (he.mul hf).dot]
  refine he.byP _ _ _ _ ?_
  rw [zipWith_arr]
  apply List.ext_getElem
  · simp
  · intro i h1 h2
    simp only [arr, List.getElem_zipWith, List.getElem_map, List.getElem_ofFn]
    have := hs.sq ⟨i, by simpa using h1⟩
    linear_combination (e * f * x ⟨i, by simpa using h1⟩ * y ⟨i, by simpa using h1⟩) * this

theorem dot_vr (hs : Sg A s) (he : Sc A e) (hf : Sc A f) {a a' b b' : List ℝ} (ha : VR s e a a') (hb : VR s f b b') :
    SameOutcome (SR (e * f)) (@dot ℝ (rounded A) a b) (@dot ℝ (rounded A) a' b') := by
  have h1 := ha.length
  have h2 := hb.length
  simp only [dot, h1.1, h1.2, h2.1, h2.2, if_true]
  exact so_ok (dotv_vr hs he hf ha hb)

theorem sqrt_sr (he : Sc A e) (h0 : 0 < e) {x y : ℝ} (h : SR (e * e) x y) :
    SR e (@PyNum.sqrt ℝ (rounded A) x) (@PyNum.sqrt ℝ (rounded A) y) := by
  rw [sqrt_rd, sqrt_rd, SR, h, Real.sqrt_mul (by positivity), Real.sqrt_mul_self h0.le, he.fl]

theorem norm_vr (hs : Sg A s) (he : Sc A e) (h0 : 0 < e) {a b : List ℝ} (ha : VR s e a b) :
    SR e (@Vec.norm ℝ (rounded A) a) (@Vec.norm ℝ (rounded A) b) := by
  have h : ∀ l, @Vec.norm ℝ (rounded A) l = @PyNum.sqrt ℝ (rounded A) (@dotv ℝ (rounded A) l l) := fun l => by
    simp only [Vec.norm, normv, toFloats_rd]
  rw [h, h]
  exact sqrt_sr he h0 (dotv_vr hs he he ha ha)

/-! ### Numbers -/

theorem add_sr (he : Sc A e) {x x' y y' : ℝ} (hx : SR e x x') (hy : SR e y y') :
    SR e (@PyNum.add ℝ (rounded A) x y) (@PyNum.add ℝ (rounded A) x' y') := by
  rw [add_rd, add_rd, SR, hx, hy, ← mul_add, he.fl]

theorem sub_sr (he : Sc A e) {x x' y y' : ℝ} (hx : SR e x x') (hy : SR e y y') :
    SR e (@PyNum.sub ℝ (rounded A) x y) (@PyNum.sub ℝ (rounded A) x' y') := by
  rw [sub_rd, sub_rd, SR, hx, hy, ← mul_sub, he.fl]

theorem mul_sr (he : Sc A e) (hf : Sc A f) {x x' y y' : ℝ} (hx : SR e x x') (hy : SR f y y') :
    SR (e * f) (@PyNum.mul ℝ (rounded A) x y) (@PyNum.mul ℝ (rounded A) x' y') := by
  rw [mul_rd, mul_rd, SR, hx, hy, ← (he.mul hf).fl]
  congr 1; ring

theorem sq_sr (he : Sc A e) {x x' : ℝ} (hx : SR e x x') :
    SR (e * e) (@sq ℝ (rounded A) x) (@sq ℝ (rounded A) x') := mul_sr he he hx hx

theorem div_sr (he : Sc A e) (hf : Sc A f) {x x' y y' : ℝ} (hx : SR e x x') (hy : SR f y y') :
    SR (e / f) (@PyNum.div ℝ (rounded A) x y) (@PyNum.div ℝ (rounded A) x' y') := by
  rw [div_rd, div_rd, SR, hx, hy, ← (he.div hf).fl]
  congr 1; rw [mul_div_mul_comm]

theorem neg_sr {x x' : ℝ} (hx : SR e x x') : SR e (@PyNum.neg ℝ (rounded A) x) (@PyNum.neg ℝ (rounded A) x') := by
  rw [neg_rd, neg_rd, SR, hx]; ring

theorem abs_sr (h0 : 0 < e) {x x' : ℝ} (hx : SR e x x') : SR e (@PyNum.abs ℝ (rounded A) x) (@PyNum.abs ℝ (rounded A) x') := by
  rw [abs_rd, abs_rd, SR, hx, abs_mul, abs_of_pos h0]

theorem abs_sr' {x x' : ℝ} (hx : SR e x x') : SR |e| (@PyNum.abs ℝ (rounded A) x) (@PyNum.abs ℝ (rounded A) x') := by
  rw [abs_rd, abs_rd, SR, hx, abs_mul]

theorem lt_sr (h0 : 0 < e) {x x' y y' : ℝ} (hx : SR e x x') (hy : SR e y y') :
    @PyNum.lt ℝ (rounded A) x y = @PyNum.lt ℝ (rounded A) x' y' := by
  rw [lt_rd, lt_rd, decide_eq_decide, hx, hy, mul_lt_mul_iff_right₀ h0]

theorem le_sr (h0 : 0 < e) {x x' y y' : ℝ} (hx : SR e x x') (hy : SR e y y') :
    @PyNum.le ℝ (rounded A) x y = @PyNum.le ℝ (rounded A) x' y' := by
  rw [le_rd, le_rd, decide_eq_decide, hx, hy, mul_le_mul_iff_right₀ h0]

theorem eq_sr (h0 : e ≠ 0) {x x' y y' : ℝ} (hx : SR e x x') (hy : SR e y y') :
    @PyNum.eq ℝ (rounded A) x y = @PyNum.eq ℝ (rounded A) x' y' := by
  rw [eq_rd, eq_rd, decide_eq_decide, hx, hy, mul_right_inj' h0]

theorem zero_sr : SR e (@zero ℝ (rounded A)) (@zero ℝ (rounded A)) := by simp [SR, zero_rd]
theorem one_sr (x : ℝ) : SR 1 x x := by simp [SR]
theorem sr_eq {x y : ℝ} (h : SR 1 x y) : x = y := by rw [h]; simp
theorem SR.cast {x y : ℝ} (h : SR e x y) (hef : e = f) : SR f x y := hef ▸ h
theorem VR.cast {x y : List ℝ} (h : VR s e x y) (hef : e = f) : VR s f x y := hef ▸ h

/-- The tolerances of the two calls: the absolute tolerance is scaled like the compared values. -/
structure TR (e : ℝ) (t t' : Tol ℝ) : Prop where
  rel : t'.rel = t.rel
  abs : SR e t.abs t'.abs

theorem tr_default : TR e (@Tol.default ℝ (rounded A)) (@Tol.default ℝ (rounded A)) := ⟨rfl, zero_sr⟩

theorem isclose_sr (he : Sc A e) (h0 : 0 < e) {t t' : Tol ℝ} (ht : TR e t t') {x x' y y' : ℝ} (hx : SR e x x') (hy : SR e y y') :
    SameOutcome (· = ·) (@isclose ℝ (rounded A) t x y) (@isclose ℝ (rounded A) t' x' y') := by
  have h1 := lt_sr (A := A) h0 ht.abs (zero_sr (A := A))
  have h2 := eq_sr (A := A) h0.ne' hx hy
  have hd := abs_sr (A := A) h0 (sub_sr he hy hx)
  have hr : ∀ {z z' : ℝ}, SR e z z' → SR e (@PyNum.abs ℝ (rounded A) (@PyNum.mul ℝ (rounded A) t.rel z))
      (@PyNum.abs ℝ (rounded A) (@PyNum.mul ℝ (rounded A) t'.rel z')) := fun {z z'} hz => by
    refine abs_sr h0 ?_
    rw [ht.rel, mul_rd, mul_rd, SR, hz, ← he.fl]
    congr 1; ring
  have h3 := le_sr (A := A) h0 hd (hr hy)
  have h4 := le_sr (A := A) h0 hd (hr hx)
  have h5 := le_sr (A := A) h0 hd ht.abs
  simp only [isclose, toFloat_rd, isFinite_rd, ht.rel, h1, h2, h3, h4, h5] at *
  split
  · exact so_err
  · split
    · exact so_ok rfl
    · simp only [Bool.not_true, Bool.false_and, Bool.or_self, Bool.false_eq_true, if_false]
      exact so_ok rfl

end Scaling
end SkSpatial
