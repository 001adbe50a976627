import Verif.Props.Scaling
import Verif.Props.Ieee5
import Verif.Props.Rounding2
/-! # C104: the method that does depend on the unit of length: `circle.intersect_line` -/

namespace SkSpatial
open XReal StdRounding

local notation "rn" => rounded (leftToRight (roundNearest 53))

theorem rintReal_near (m : ℤ) {y : ℝ} (h : |y - m| < 1 / 2) : rintReal y = m := by
  obtain ⟨z, hz, hd, -⟩ := rintReal_spec y
  rw [hz]
  have h1 : |((z - m : ℤ) : ℝ)| < 1 := by
    push_cast
    calc |(z : ℝ) - m| = |(y - m) - (y - z)| := by ring_nf
      _ ≤ |y - m| + |y - z| := abs_sub _ _
      _ < 1 := by rw [abs_sub_comm y z]; linarith
  have h2 : |z - m| < 1 := by exact_mod_cast h1
  have : z - m = 0 := by rwa [Int.abs_lt_one_iff] at h2
  exact_mod_cast (by omega : z = m)

/-- Adding less than 2 to a float of magnitude at least `2⁵⁵` has no effect. -/
theorem rn_absorb {p u : ℝ} (hp : roundNearest 53 p = p) (h : (2 : ℝ) ^ (55 : ℤ) ≤ |p|) (hu : |u| < 2) :
    roundNearest 53 (p + u) = p := by
  obtain ⟨e, he⟩ : ∃ e, e = Int.log 2 |p + u| := ⟨_, rfl⟩
  have h54 : (2 : ℝ) ^ (54 : ℤ) ≤ |p + u| := by
    have := abs_sub_abs_le_abs_sub p (-u)
    rw [abs_neg, sub_neg_eq_add] at this
    have h2 : (2 : ℝ) ^ (55 : ℤ) = 2 ^ (54 : ℤ) + 2 ^ (54 : ℤ) := by norm_num
    have h3 : (2 : ℝ) ≤ 2 ^ (54 : ℤ) := by norm_num
    linarith
  have h0 : 0 < |p + u| := lt_of_lt_of_le (by positivity) h54
  have hl : (2 : ℝ) ^ e ≤ |p + u| := by rw [he]; exact_mod_cast Int.zpow_log_le_self (b := 2) (by norm_num) h0
  have hu' : |p + u| < (2 : ℝ) ^ (e + 1) := by rw [he]; exact_mod_cast Int.lt_zpow_succ_log_self (b := 2) (by norm_num) |p + u|
  have he54 : 54 ≤ e := by
    have := (zpow_lt_zpow_iff_right₀ (by norm_num : (1 : ℝ) < 2)).mp (h54.trans_lt hu')
    omega
  have hpe : (2 : ℝ) ^ e ≤ |p| := by
    by_contra hc
    push Not at hc
    have hm : Mul2 (-3) p := by
      have := rn_mul2_of_le (s := -55) (x := p) (.inr (by rw [neg_neg]; exact h))
      rw [hp] at this; exact this
    have hm2 : Mul2 (-3) ((2 : ℝ) ^ e) := Mul2.mono (m := -e) ⟨1, by rw [← zpow_add₀ (by norm_num)]; simp⟩ (by omega)
    have hd : Mul2 (-3) ((2 : ℝ) ^ e - |p|) := by rw [sub_eq_add_neg]; exact hm2.add hm.abs.neg
    have h8 := hd.le_abs (by linarith)
    rw [abs_of_pos (by linarith), neg_neg] at h8
    have h9 : (2 : ℝ) ^ (3 : ℤ) = 8 := by norm_num
    rw [h9] at h8
    have := abs_add_le p u
    linarith
  obtain ⟨m, hm⟩ : Mul2 (52 - e) p := by
    have := rn_mul2_of_le (s := -e) (x := p) (.inr (by rw [neg_neg]; exact hpe))
    rw [hp] at this; exact this.mono (by omega)
  rw [rn_def, ← he]
  have hpos : (0 : ℝ) < 2 ^ (52 - e) := by positivity
  rw [rintReal_near m, ← hm, mul_div_cancel_right₀ _ hpos.ne']
  rw [← hm, add_mul, add_sub_cancel_left, abs_mul, abs_of_pos hpos]
  have h2 : (2 : ℝ) ^ (52 - e) ≤ 2 ^ (-2 : ℤ) := zpow_le_zpow_right₀ (by norm_num) (by omega)
  have h3 : (2 : ℝ) ^ (-2 : ℤ) = 1 / 4 := by norm_num
  rw [h3] at h2
  calc |u| * 2 ^ (52 - e) < 2 * 2 ^ (52 - e) := by gcongr
    _ ≤ 1 / 2 := by linarith

/-- The coordinates of a rounded unit vector are less than 2. -/
theorem unit_lt_two {v z : E 2} (hv : v ≠ 0) (h : @Vec.unit ℝ rn (arr v) = .ok (arr z)) (i : Fin 2) : |z i| < 2 := by
  obtain ⟨z', hz, hc⟩ := unit_rd std53 v hv
  have : z = z' := arr_injective (Except.ok.inj (h.symm.trans hz))
  subst this
  obtain ⟨δ, hδ, hz⟩ := hc i
  have h1 : |(‖v‖⁻¹ • v) i| ≤ 1 := by
    have := PiLp.norm_apply_le (‖v‖⁻¹ • v) i
    rwa [norm_smul, norm_inv, norm_norm, inv_mul_cancel₀ (norm_ne_zero_iff.mpr hv)] at this
  have h2 : Real.exp δ < 2 := by
    refine (Real.exp_le_exp.mpr ((le_abs_self δ).trans hδ)).trans_lt ?_
    have := exp_eps_le2 std53 (k := ((2 : ℕ) + 5) / 2) (by norm_num) (by norm_num)
    have h3 : 2 * ((((2 : ℕ) : ℝ) + 5) / 2) * (2 : ℝ) ^ (-(53 : ℕ) : ℤ) < 1 := by norm_num
    linarith
  rw [hz, abs_mul, abs_of_pos (Real.exp_pos δ)]
  have := Real.exp_pos δ
  nlinarith

theorem isFloat_rng {x : ℝ} {M : ℤ} (h : IsFloat x) (hM : |x| ≤ (2 : ℝ) ^ M) : Rng 1074 M x := by
  refine ⟨?_, hM⟩
  unfold IsFloat binary64 at h
  simp only at h
  split at h
  · cases h
  split at h
  · cases h
  have h1 := rintGrid_mul2 (min (52 - Int.log 2 |x|) 1074) x
  rw [show rintReal (x * (2 : ℝ) ^ min (52 - Int.log 2 |x|) 1074) / (2 : ℝ) ^ min (52 - Int.log 2 |x|) 1074 = x from XReal.fin.inj h] at h1
  exact h1.mono (min_le_right _ _)

theorem isFloat_rn {x : ℝ} {M : ℤ} (h : IsFloat x) (hM : |x| ≤ (2 : ℝ) ^ M) (h' : M ≤ 1023) : roundNearest 53 x = x :=
  XReal.fin.inj ((binary64_rng (isFloat_rng h hM) le_rfl h').symm.trans h)

theorem finite64 {y : ℝ} (h : |y| ≤ (2 : ℝ) ^ (900 : ℤ)) : ∃ z, binary64 (fin y) = fin z := by
  obtain ⟨z, hz, -⟩ := binary64_of_le (j := 1) (by norm_num) (M := 900) (by norm_num) (by norm_num) (by rwa [Nat.cast_one, one_mul])
  exact ⟨z, hz⟩

theorem xsub_self (a : ℝ) : @PyNum.sub XReal ieee (fin a) (fin a) = fin 0 := by
  show binary64 (XReal.add (fin a) (fin (-a))) = _
  rw [show XReal.add (fin a) (fin (-a)) = fin 0 by simp [XReal.add]]
  exact binary64_underflow (by simp)

theorem b64_zero : binary64 (fin 0) = fin 0 := binary64_underflow (by simp)

/-- C104: the exception.  `circle.intersect_line` adds the unit direction to the line's point.  For a line whose point has
coordinates of magnitude `2⁵⁵` or more, this changes nothing in binary64: the method divides zero by zero and raises, whatever the
circle, although the constructors accept the circle and the line. -/
theorem C104_circle_line_defect {c p v : E 2} {r : ℝ} (hc : ∀ i, IsFloat (c i) ∧ |c i| ≤ (2 : ℝ) ^ (400 : ℤ))
    (hp : ∀ i, IsFloat (p i) ∧ (2 : ℝ) ^ (55 : ℤ) ≤ |p i| ∧ |p i| ≤ (2 : ℝ) ^ (400 : ℤ)) (hr : 0 < r ∧ IsFloat r ∧ r ≤ (2 : ℝ) ^ (400 : ℤ))
    (hv : ModerateV v) (hv0 : v ≠ 0) :
    ∃ (C : Circle XReal) (L : Line XReal), @Circle.new XReal ieee (xarr c) (fin r) = .ok C ∧ @Line.new XReal ieee (xarr p) (xarr v) = .ok L ∧
      @Circle.intersectLine XReal ieee C L = .error (.valueError "The values must all be finite.") := by
  classical
  refine ⟨⟨xarr c, fin r⟩, ⟨xarr p, xarr v⟩, ?_, ((C96_constructors (by norm_num) p hv).1 hv0).1, ?_⟩
  · have : @PyNum.le XReal ieee (fin r) (@zero XReal ieee) = false := by
      rw [ieee_zero, ieee_le, le_rd, zero_rd]; simpa using hr.1
    simp [Circle.new, newBaseSphere, this, xarr, arr]
    rfl
  obtain ⟨u, hu1, hu2, hur⟩ := unit_ie (by norm_num) hv.rv (by norm_num) (by norm_num) (by norm_num) (by norm_num) hv0
  have hprng : RV 1074 400 p := fun i => isFloat_rng (hp i).1 (hp i).2.2
  have hcrng : RV 1074 400 c := fun i => isFloat_rng (hc i).1 (hc i).2
  obtain ⟨q, hq1, hq2, -⟩ := ieee_vadd hprng (RV.mono hur (m' := 1074) (M' := 400) (by norm_num) (by norm_num)) (by norm_num) (by norm_num)
  have hqp : q = p := by
    obtain ⟨q', h1, h2⟩ := vadd_rd (fl := leftToRight (roundNearest 53)) p u
    have : q = q' := arr_injective (Except.ok.inj (hq1.symm.trans h1))
    subst this
    ext i
    rw [h2]
    exact rn_absorb (isFloat_rn (hp i).1 (hp i).2.2 (by norm_num)) (hp i).2.1 (unit_lt_two hv0 hu1 i)
  subst hqp
  obtain ⟨w, hw1, hw2, hwr⟩ := ieee_vsub hprng hcrng (by norm_num) (by norm_num)
  have hpow : ∀ {a b : ℝ}, |a| ≤ (2 : ℝ) ^ (401 : ℤ) → |b| ≤ (2 : ℝ) ^ (401 : ℤ) → |a * b| ≤ (2 : ℝ) ^ (900 : ℤ) := fun {a b} ha hb => by
    rw [abs_mul]
    calc |a| * |b| ≤ (2 : ℝ) ^ (401 : ℤ) * (2 : ℝ) ^ (401 : ℤ) := mul_le_mul ha hb (abs_nonneg _) (by positivity)
      _ = (2 : ℝ) ^ (802 : ℤ) := by rw [← zpow_add₀ (by norm_num)]; norm_num
      _ ≤ _ := zpow_le_zpow_right₀ (by norm_num) (by norm_num)
  obtain ⟨a, ha⟩ := finite64 (hpow (hwr 0).2 (hwr 1).2)
  obtain ⟨b, hb⟩ := finite64 (hpow (a := r) (b := r)
    ((abs_of_pos hr.1).trans_le (hr.2.2.trans (zpow_le_zpow_right₀ (by norm_num) (by norm_num))))
    ((abs_of_pos hr.1).trans_le (hr.2.2.trans (zpow_le_zpow_right₀ (by norm_num) (by norm_num)))))
  have hxw : xarr w = [fin (w 0), fin (w 1)] := by simp [xarr, arr]
  simp only [Circle.intersectLine, hu2, ok_bind, hq2, hw2, hxw]
  have e2 : @PyNum.mul XReal ieee (fin (w 0)) (fin (w 1)) = fin a := ha
  have e3 : @PyNum.mul XReal ieee (fin r) (fin r) = fin b := hb
  have m0 : ∀ x : ℝ, @PyNum.mul XReal ieee (fin 0) (fin x) = fin 0 := fun x => by
    show binary64 (fin (0 * x)) = _
    rw [zero_mul, b64_zero]
  have m0' : ∀ x : ℝ, @PyNum.mul XReal ieee (fin x) (fin 0) = fin 0 := fun x => by
    show binary64 (fin (x * 0)) = _
    rw [mul_zero, b64_zero]
  have a0 : @PyNum.add XReal ieee (fin 0) (fin 0) = fin 0 := by
    show binary64 (fin (0 + 0)) = _
    rw [add_zero, b64_zero]
  have l0 : @PyNum.lt XReal ieee (fin 0) (fin 0) = false := by
    rw [ieee_lt, lt_rd]; simp
  have s0 : @PyNum.sqrt XReal ieee (fin 0) = fin 0 := by
    show binary64 (XReal.sqrt (fin 0)) = _
    simp [XReal.sqrt, b64_zero]
  have d0 : @PyNum.div XReal ieee (fin 0) (fin 0) = nan := by
    show binary64 (XReal.div (fin 0) (fin 0)) = _
    simp [XReal.div, XReal.ofSign, binary64]
  have z0 : @zero XReal ieee = fin 0 := by rw [ieee_zero, zero_rd]
  have ab0 : @PyNum.abs XReal ieee (fin 0) = fin 0 := by rw [ieee_abs, abs_rd, abs_zero]
  have ng0 : @PyNum.neg XReal ieee (fin 0) = fin 0 := by rw [ieee_neg, neg_rd, neg_zero]
  simp only [xsub_self, sq, m0, m0', a0, e2, e3, z0, l0, mathSqrt, s0, ok_bind, ieee_ofInt, Bool.false_eq_true, if_false, ab0, ng0, d0]
  simp [new1D, xfin, XReal.isFinite]

/-- The hypotheses are met by a circle and a line through its center. -/
example : ∃ (C : Circle XReal) (L : Line XReal), @Circle.new XReal ieee (xarr (vec2 ((2 : ℝ) ^ (55 : ℤ)) ((2 : ℝ) ^ (55 : ℤ)))) (fin ((2 : ℝ) ^ (50 : ℤ))) = .ok C ∧
    @Line.new XReal ieee (xarr (vec2 ((2 : ℝ) ^ (55 : ℤ)) ((2 : ℝ) ^ (55 : ℤ)))) (xarr (vec2 ((3 : ℤ) : ℝ) ((4 : ℤ) : ℝ))) = .ok L ∧
    ∃ msg, @Circle.intersectLine XReal ieee C L = .error (.valueError msg) := by
  have hf : ∀ i, IsFloat (vec2 ((2 : ℝ) ^ (55 : ℤ)) ((2 : ℝ) ^ (55 : ℤ)) i) ∧
      (2 : ℝ) ^ (55 : ℤ) ≤ |vec2 ((2 : ℝ) ^ (55 : ℤ)) ((2 : ℝ) ^ (55 : ℤ)) i| ∧
      |vec2 ((2 : ℝ) ^ (55 : ℤ)) ((2 : ℝ) ^ (55 : ℤ)) i| ≤ (2 : ℝ) ^ (400 : ℤ) := by
    intro i
    have : vec2 ((2 : ℝ) ^ (55 : ℤ)) ((2 : ℝ) ^ (55 : ℤ)) i = (2 : ℝ) ^ (55 : ℤ) := by fin_cases i <;> rfl
    rw [this, abs_of_pos (by positivity)]
    exact ⟨isFloat_pow (by norm_num) (by norm_num), le_rfl, zpow_le_zpow_right₀ (by norm_num) (by norm_num)⟩
  obtain ⟨C, L, h1, h2, h3⟩ := C104_circle_line_defect (r := (2 : ℝ) ^ (50 : ℤ)) (fun i => ⟨(hf i).1, (hf i).2.2⟩) hf
    ⟨by positivity, isFloat_pow (by norm_num) (by norm_num), zpow_le_zpow_right₀ (by norm_num) (by norm_num)⟩
    (moderate_vec2 (moderate_int (k := 3) (by norm_num)) (moderate_int (k := 4) (by norm_num))) (by
      intro h
      have := congrArg (fun x : E 2 => x 0) h
      simp [vec2] at this)
  exact ⟨C, L, h1, h2, _, h3⟩

end SkSpatial
