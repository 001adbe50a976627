import Verif.Props.Rounding5
import Verif.Props.LineSegment
/-! # C81: line segments under rounding -/

namespace SkSpatial
open StdRounding

variable {u : ℝ} {fl : Arith} {n : ℕ}

/-- `math.isclose(a, -1)` with the default tolerances on `[-1, 1]`, under rounding. -/
theorem isclose_neg_one_rd (h : StdRounding u fl) (hu : u ≤ 1 / 10000000000) {a : ℝ} (ha : |a| ≤ 1) :
    ∃ b, @isclose ℝ (rounded fl) (@Tol.default ℝ (rounded fl)) a (@PyNum.ofInt ℝ (rounded fl) (-1)) = .ok b ∧
      (a ≤ -1 + 9 / 10000000000 → b = true) ∧ (b = true → a ≤ -1 + 11 / 10000000000) := by
  classical
  have hu0 := h.nonneg
  rw [tolDefault_rd, ofInt_rd]
  obtain ⟨t2, t1⟩ := tol_bounds h hu
  obtain ⟨t, ht⟩ : ∃ t, t = fl (1 / 1000000000) := ⟨_, rfl⟩
  rw [← ht] at t1 t2 ⊢
  have ht0 : 0 ≤ t := by linarith
  rw [isclose_rd _ _ _ _ _ ht0 le_rfl]
  push_cast
  have ha' := abs_le.mp ha
  have hd : |-1 - a| = 1 + a := by rw [abs_of_nonpos (by linarith)]; ring
  have dlo := le_abs_fl h (-1 - a)
  have dhi := abs_fl_le h (-1 - a)
  have tl := le_abs_fl h (t * -1)
  have th := abs_fl_le h (t * -1)
  have al := abs_fl_le h (t * a)
  have e1 : |t * -1| = t * 1 := by rw [abs_mul, abs_of_nonneg ht0]; simp
  have e2 : |t * a| = t * |a| := by rw [abs_mul, abs_of_nonneg ht0]
  rw [e1] at tl th
  rw [e2] at al
  refine ⟨_, rfl, fun hc => ?_, fun hr => ?_⟩
  · simp only [decide_eq_true_eq]
    right; left
    exact near_aux hu0 hu t2 zero_le_one (abs_nonneg (-1 - a)) (by rw [hd]; linarith) dhi (by norm_num) tl
  · simp only [decide_eq_true_eq] at hr
    rcases hr with hr | hr | hr | hr
    · linarith
    · have := far_aux hu0 hu ht0 t1 zero_le_one (abs_nonneg (-1 - a)) dlo zero_le_one (by norm_num) th hr
      rw [hd] at this; linarith
    · have := far_aux hu0 hu ht0 t1 zero_le_one (abs_nonneg (-1 - a)) dlo (abs_nonneg a) (by linarith) al hr
      rw [hd] at this; linarith
    · have := far_aux hu0 hu ht0 t1 zero_le_one (abs_nonneg (-1 - a)) dlo zero_le_one (by norm_num) (F := 0)
        (by positivity) hr
      rw [hd] at this; linarith

theorem isclose_self_rd (h : StdRounding u fl) (hu : u ≤ 1 / 10000000000) (x : ℝ) :
    @isclose ℝ (rounded fl) (@Tol.default ℝ (rounded fl)) x x = .ok true := by
  rw [tolDefault_rd, isclose_rd _ _ _ _ _ (by linarith [(tol_bounds h hu).1]) le_rfl]
  simp

theorem segment_new_rd (h : StdRounding u fl) (hu : u ≤ 1 / 10000000000) {a b : E n} {S : LineSegment ℝ}
    (hS : @LineSegment.new ℝ (rounded fl) (arr a) (arr b) = .ok S) :
    NeZero n ∧ a ≠ b ∧ S = ⟨arr a, arr b⟩ := by
  have hn : NeZero n := by
    constructor
    rintro rfl
    simp [LineSegment.new, new1D, arr] at hS
  simp only [LineSegment.new, new1D_rd, ok_bind, bind_ok_iff] at hS
  obtain ⟨c, hc, hS⟩ := hS
  have hc0 : c = false := by
    by_contra hne
    have : c = true := by simpa using hne
    subst this
    simp at hS
  subst hc0
  refine ⟨hn, ?_, by simpa [eq_comm] using hS⟩
  rintro rfl
  have : @arrIsClose ℝ (rounded fl) (@Tol.default ℝ (rounded fl)) (arr a) (arr a) = .ok true := by
    simp only [arrIsClose, broadcastPairs, if_true, ok_bind]
    rw [mapM_ok (List.zip (arr a) (arr a)) _ (fun _ => true)]
    · simp
    · intro p hp
      have : p.1 = p.2 := by
        have hz : ∀ l : List ℝ, ∀ p ∈ List.zip l l, p.1 = p.2 := by
          intro l
          induction l with
          | nil => simp
          | cons x l ih =>
            intro p hp
            rcases List.mem_cons.mp hp with rfl | hp
            · rfl
            · exact ih p hp
        exact hz _ p hp
      rw [this]; exact isclose_self_rd h hu _
  rw [this] at hc
  simp at hc

theorem containsPoint_rd [NeZero n] (h : StdRounding u fl) (hu : (n + 7) * u ≤ 9 / 100000000000) (a b x : E n) :
    ∃ w, @LineSegment.containsPoint ℝ (rounded fl) (@Tol.default ℝ (rounded fl)) ⟨arr a, arr b⟩ (arr x) = .ok w ∧
      (x = a ∨ x = b ∨ cosE (a - x) (b - x) ≤ -1 + 7 / 10000000000 → w = true) ∧
      (w = true → x = a ∨ x = b ∨ cosE (a - x) (b - x) ≤ -1 + 13 / 10000000000) := by
  obtain ⟨hu1, -, -, hE⟩ := small_exp h hu
  obtain ⟨p, hp, hpi⟩ := fromPoints_rd fl x a
  obtain ⟨q, hq, hqi⟩ := fromPoints_rd fl x b
  have cp : CRP (eps u) 1 p (a - x) := fun i => by rw [hpi]; exact h.rp _
  have cq : CRP (eps u) 1 q (b - x) := fun i => by rw [hqi]; exact h.rp _
  have zero_iff : ∀ {p a : E n}, CRP (eps u) 1 p (a - x) → (p = 0 ↔ x = a) := by
    intro p a hc
    constructor
    · intro h0
      ext i
      have := (hc i).eq_zero.mp (by rw [h0]; rfl)
      have : a i - x i = 0 := by simpa using this
      linarith
    · rintro rfl
      ext i
      exact (hc i).eq_zero.mpr (by simp)
  have zp := C73_is_zero (n := n) h (by linarith) p
  have zq := C73_is_zero (n := n) h (by linarith) q
  simp only [LineSegment.containsPoint, hp, hq, ok_bind, zp, zq]
  by_cases h1 : x = a
  · have : p = 0 := (zero_iff cp).mpr h1
    exact ⟨true, by simp [this], by simp, by simp [h1]⟩
  have hp0 : p ≠ 0 := fun hh => h1 ((zero_iff cp).mp hh)
  by_cases h2 : x = b
  · have : q = 0 := (zero_iff cq).mpr h2
    exact ⟨true, by simp [this, hp0], by simp, by simp [h2]⟩
  have hq0 : q ≠ 0 := fun hh => h2 ((zero_iff cq).mp hh)
  obtain ⟨c, hc, hc1, hce⟩ := cosine_rd h zero_le_one zero_le_one cp cq
    (sub_ne_zero.mpr (Ne.symm h1)) (sub_ne_zero.mpr (Ne.symm h2))
  rw [show (2 * 1 + 2 * 1 + 2 * n + 6 : ℝ) = 2 * (n + 5) by ring] at hce
  obtain ⟨w, hw, w1, w2⟩ := isclose_neg_one_rd h hu1 hc1
  have hce' := abs_le.mp (hce.trans hE)
  refine ⟨w, by simp [hp0, hq0, hc, hw], ?_, fun hh => ?_⟩
  · rintro (hh | hh | hh)
    · exact absurd hh h1
    · exact absurd hh h2
    · exact w1 (by linarith)
  · right; right
    have := w2 hh
    linarith

/-- C81: `segment.contains_point(x)` with the default tolerances under rounding: `True` for every exact point of
the segment; `True` only within `1.3e-5` segment lengths of the segment. -/
theorem C81_contains_point (h : StdRounding u fl) (hu : (n + 7) * u ≤ 9 / 100000000000) {a b : E n}
    {S : LineSegment ℝ} (hS : @LineSegment.new ℝ (rounded fl) (arr a) (arr b) = .ok S) (x : E n) :
    ∃ w, @LineSegment.containsPoint ℝ (rounded fl) (@Tol.default ℝ (rounded fl)) S (arr x) = .ok w ∧
      (x ∈ segment ℝ a b → w = true) ∧
      (w = true → ∃ y ∈ segment ℝ a b, dist x y ≤ 13 / 1000000 * dist a b) := by
  obtain ⟨hu1, -⟩ := small_exp h hu
  obtain ⟨hn, hab, rfl⟩ := segment_new_rd h hu1 hS
  obtain ⟨w, hw, w1, w2⟩ := containsPoint_rd h hu a b x
  refine ⟨w, hw, fun hx => w1 ?_, fun hh => ?_⟩
  · rcases mem_segment_iff_cos.mp hx with e | e | e
    · exact .inl e
    · exact .inr (.inl e)
    · right; right; rw [e]; norm_num
  · refine near_segment_gen (δ := 13 / 10000000000) (by norm_num) (by norm_num) (by norm_num) (by norm_num) ?_
    have hcos : Real.cos (EuclideanGeometry.angle a x b) = cosE (a - x) (b - x) := (cosE_eq_cos _ _).symm
    rw [hcos]
    exact w2 hh

/-- `math.isclose` with the default tolerances on two given numbers, under rounding. -/
theorem isclose_default_rd (h : StdRounding u fl) (hu : u ≤ 1 / 10000000000) (a b : ℝ) :
    ∃ r, @isclose ℝ (rounded fl) (@Tol.default ℝ (rounded fl)) a b = .ok r ∧
      (|a - b| ≤ 9 / 10000000000 * max |a| |b| → r = true) ∧
      (r = true → |a - b| ≤ 11 / 10000000000 * max |a| |b|) := by
  classical
  have hu0 := h.nonneg
  rw [tolDefault_rd]
  obtain ⟨t2, t1⟩ := tol_bounds h hu
  obtain ⟨t, ht⟩ : ∃ t, t = fl (1 / 1000000000) := ⟨_, rfl⟩
  rw [← ht] at t1 t2 ⊢
  have ht0 : 0 ≤ t := by linarith
  rw [isclose_rd _ _ _ _ _ ht0 le_rfl]
  obtain ⟨M, hM⟩ : ∃ M, M = max |a| |b| := ⟨_, rfl⟩
  have haM : |a| ≤ M := hM ▸ le_max_left _ _
  have hbM : |b| ≤ M := hM ▸ le_max_right _ _
  have hM0 : 0 ≤ M := (abs_nonneg a).trans haM
  rw [← hM, abs_sub_comm a b]
  have dlo := le_abs_fl h (b - a)
  have dhi := abs_fl_le h (b - a)
  have e1 : |t * a| = t * |a| := by rw [abs_mul, abs_of_nonneg ht0]
  have e2 : |t * b| = t * |b| := by rw [abs_mul, abs_of_nonneg ht0]
  have al := le_abs_fl h (t * a)
  have ah := abs_fl_le h (t * a)
  have bl := le_abs_fl h (t * b)
  have bh := abs_fl_le h (t * b)
  rw [e1] at al ah
  rw [e2] at bl bh
  refine ⟨_, rfl, fun hc => ?_, fun hr => ?_⟩
  · simp only [decide_eq_true_eq]
    rcases le_total |a| |b| with hab | hab
    · right; left
      have : M = |b| := by rw [hM, max_eq_right hab]
      exact near_aux hu0 hu t2 hM0 (abs_nonneg (b - a)) hc dhi (by linarith) bl
    · right; right; left
      have : M = |a| := by rw [hM, max_eq_left hab]
      exact near_aux hu0 hu t2 hM0 (abs_nonneg (b - a)) hc dhi (by linarith) al
  · simp only [decide_eq_true_eq] at hr
    rcases hr with hr | hr | hr | hr
    · rw [hr, sub_self, abs_zero]; positivity
    · exact far_aux hu0 hu ht0 t1 hM0 (abs_nonneg (b - a)) dlo (abs_nonneg b) (by linarith) bh hr
    · exact far_aux hu0 hu ht0 t1 hM0 (abs_nonneg (b - a)) dlo (abs_nonneg a) (by linarith) ah hr
    · exact far_aux hu0 hu ht0 t1 hM0 (abs_nonneg (b - a)) dlo (abs_nonneg a) (by linarith) (F := 0)
        (by positivity) hr

/-- C81: the constructor under rounding: it raises if every pair of coordinates is within a relative difference
of `9e-10` (in particular for equal endpoints) and succeeds if some pair differs by more than `1.1e-9`. -/
theorem C81_constructor [NeZero n] (h : StdRounding u fl) (hu : u ≤ 1 / 10000000000) (a b : E n) :
    ((∀ i, |a i - b i| ≤ (9 / 10 ^ 10 : ℝ) * max |a i| |b i|) →
      @LineSegment.new ℝ (rounded fl) (arr a) (arr b) = .error (.valueError "The endpoints must not be equal.")) ∧
    (∀ i, (11 / 10 ^ 10 : ℝ) * max |a i| |b i| < |a i - b i| →
      @LineSegment.new ℝ (rounded fl) (arr a) (arr b) = .ok ⟨arr a, arr b⟩) := by
  have e9 : (9 : ℝ) / 10 ^ 10 = 9 / 10000000000 := by norm_num
  have e11 : (11 : ℝ) / 10 ^ 10 = 11 / 10000000000 := by norm_num
  rw [e9, e11]
  choose f hf h1 h2 using isclose_default_rd h hu
  have hm : (List.zip (arr a) (arr b)).mapM (m := Except Err)
      (fun p => @isclose ℝ (rounded fl) (@Tol.default ℝ (rounded fl)) p.1 p.2) =
      .ok ((List.zip (arr a) (arr b)).map fun p => f p.1 p.2) :=
    mapM_ok _ _ _ fun p _ => hf p.1 p.2
  have hz : List.zip (arr a) (arr b) = List.ofFn fun i => (a i, b i) := by
    apply List.ext_getElem <;> simp [arr]
  have hall : @arrIsClose ℝ (rounded fl) (@Tol.default ℝ (rounded fl)) (arr a) (arr b) =
      .ok ((List.ofFn fun i => f (a i) (b i)).all id) := by
    simp only [arrIsClose, broadcastPairs, length_arr, if_true, ok_bind, hm, pure_ok]
    rw [hz, List.map_ofFn]; rfl
  simp only [LineSegment.new, new1D_rd, ok_bind, hall]
  constructor
  · intro hh
    rw [if_pos]
    simp only [List.all_eq_true, List.mem_ofFn]
    rintro _ ⟨i, rfl⟩
    exact h1 _ _ (hh i)
  · intro i hi
    rw [if_neg]
    · rfl
    · intro hc
      simp only [List.all_eq_true, List.mem_ofFn] at hc
      have := h2 _ _ (hc _ ⟨i, rfl⟩)
      linarith

/-- The hypotheses of C81 are met by binary64 rounding and a segment whose points cannot be represented exactly. -/
example : ∃ S, @LineSegment.new ℝ (rounded (leftToRight (roundNearest 53))) (arr (vec2 0 0)) (arr (vec2 1 (1 / 10))) = .ok S ∧
    @LineSegment.containsPoint ℝ (rounded (leftToRight (roundNearest 53))) (@Tol.default ℝ (rounded (leftToRight (roundNearest 53)))) S
      (arr (vec2 (1 / 3) (1 / 30))) = .ok true := by
  have hstd := roundNearest_std (p := 53) (by norm_num)
  have hu : ((2 : ℕ) + 7 : ℝ) * (2 : ℝ) ^ (-((53 : ℕ) : ℤ)) ≤ 9 / 100000000000 := by norm_num
  have hS := (C81_constructor hstd (by norm_num) (vec2 0 0) (vec2 1 (1 / 10))).2 0 (by norm_num [vec2])
  obtain ⟨w, hw, w1, -⟩ := C81_contains_point hstd hu hS (vec2 (1 / 3) (1 / 30))
  refine ⟨_, hS, ?_⟩
  rw [hw, w1]
  refine ⟨2 / 3, 1 / 3, by norm_num, by norm_num, by norm_num, ?_⟩
  ext i
  fin_cases i <;> norm_num [vec2]

end SkSpatial
