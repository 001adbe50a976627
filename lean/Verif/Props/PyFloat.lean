import Verif.Model.PyFloat
import Verif.Lemmas.Raises
import Verif.Props.Ieee5
/-! # C107: radii that are Python floats -/

namespace SkSpatial
open XReal
variable {K : Type} [PyNum K]

theorem pySq_ok {x : K} (h : ¬ SquareOverflows x) : pySq x = .ok (sq x) := by
  unfold pySq pyPowResult
  rw [if_neg]
  simpa [SquareOverflows, sq] using h

theorem pySq_err {x : K} (h : SquareOverflows x) : ∃ m, pySq x = .error (.overflowError m) := by
  refine ⟨"(34, 'Numerical result out of range')", ?_⟩
  unfold pySq pyPowResult
  rw [if_pos]
  simpa [SquareOverflows, sq] using h

theorem pyCube_ok {x : K} (h : ¬ CubeOverflows x) : pyCube x = .ok (cube x) := by
  unfold pyCube pyPowResult
  rw [if_neg]
  simpa [CubeOverflows, cube] using h

theorem pyCube_err {x : K} (h : CubeOverflows x) : ∃ m, pyCube x = .error (.overflowError m) := by
  refine ⟨"(34, 'Numerical result out of range')", ?_⟩
  unfold pyCube pyPowResult
  rw [if_pos]
  simpa [CubeOverflows, cube] using h

theorem bind_same {α β : Type} (x : Res α) {y : Res β} {f : α → Res β} (he : ∀ e, x = .error e → y = .error e)
    (hf : ∀ a, x = .ok a → f a = y) : (x >>= f) = y := by
  cases x with
  | error e => exact (he e rfl).symm
  | ok a => exact hf a rfl

/-- C107: if the powers of the radius do not overflow, it does not matter whether the radius is a Python float. -/
theorem C107_same_result (c d : Circle K) (s : Sphere K) (y : Cylinder K) (l : Line K) :
    (¬ SquareOverflows c.radius → Circle.areaPy c = .ok (Circle.area c) ∧ Circle.intersectLinePy c l = Circle.intersectLine c l) ∧
    (¬ SquareOverflows c.radius → ¬ SquareOverflows d.radius → Circle.intersectCirclePy c d = Circle.intersectCircle c d) ∧
    (¬ SquareOverflows s.radius → Sphere.surfaceAreaPy s = .ok (Sphere.surfaceArea s) ∧
      Sphere.intersectLinePy s l = Sphere.intersectLine s l) ∧
    (¬ CubeOverflows s.radius → Sphere.volumePy s = .ok (Sphere.volume s)) ∧
    (¬ SquareOverflows y.radius → Cylinder.surfaceAreaPy y = .ok (Cylinder.surfaceArea y) ∧
      Cylinder.volumePy y = .ok (Cylinder.volume y) ∧
      ∀ k i, Cylinder.intersectLinePy y l k i = Cylinder.intersectLine y l k i) := by
  refine ⟨fun h => ⟨?_, ?_⟩, fun h h' => ?_, fun h => ⟨?_, ?_⟩, fun h => ?_, fun h => ⟨?_, ?_, fun k i => ?_⟩⟩
  · simp only [Circle.areaPy, pySq_ok h, ok_bind, pure_ok, Circle.area]
  · unfold Circle.intersectLinePy
    refine bind_same _ (fun e he => by simp only [Circle.intersectLine, he, error_bind]) fun u hu => ?_
    refine bind_same _ (fun e he => by simp only [Circle.intersectLine, hu, ok_bind, he, error_bind]) fun p2 hp => ?_
    refine bind_same _ (fun e he => by simp only [Circle.intersectLine, hu, hp, ok_bind, he, error_bind]) fun t1 ht1 => ?_
    refine bind_same _ (fun e he => by simp only [Circle.intersectLine, hu, hp, ht1, ok_bind, he, error_bind]) fun t2 ht2 => ?_
    split
    · rw [pySq_ok h, ok_bind]
    · rfl
  · unfold Circle.intersectCirclePy
    refine bind_same _ (fun e he => by simp only [Circle.intersectCircle, he, error_bind]) fun u hu => ?_
    split
    · rfl
    · rw [pySq_ok h, ok_bind, pySq_ok h', ok_bind]
  · simp only [Sphere.surfaceAreaPy, pySq_ok h, ok_bind, pure_ok, Sphere.surfaceArea]
  · unfold Sphere.intersectLinePy
    refine bind_same _ (fun e he => by simp only [Sphere.intersectLine, he, error_bind]) fun u hu => ?_
    refine bind_same _ (fun e he => by simp only [Sphere.intersectLine, hu, ok_bind, he, error_bind]) fun p2 hp => ?_
    refine bind_same _ (fun e he => by simp only [Sphere.intersectLine, hu, hp, ok_bind, he, error_bind]) fun t1 ht1 => ?_
    rw [pySq_ok h, ok_bind]
  · simp only [Sphere.volumePy, pyCube_ok h, ok_bind, pure_ok, Sphere.volume]
  · simp only [Cylinder.surfaceAreaPy, pySq_ok h, ok_bind, pure_ok, Cylinder.surfaceArea]
  · simp only [Cylinder.volumePy, pySq_ok h, ok_bind, pure_ok, Cylinder.volume]
  · have hinf : Cylinder.intersectInfinitePy y l k = Cylinder.intersectInfinite y l k := by
      unfold Cylinder.intersectInfinitePy
      refine bind_same _ (fun e he => by simp only [Cylinder.intersectInfinite, he, error_bind]) fun a ha => ?_
      refine bind_same _ (fun e he => by simp only [Cylinder.intersectInfinite, ha, ok_bind, he, error_bind]) fun b hb => ?_
      refine bind_same _ (fun e he => by simp only [Cylinder.intersectInfinite, ha, hb, ok_bind, he, error_bind]) fun b hb => ?_
      refine bind_same _ (fun e he => by simp only [Cylinder.intersectInfinite, *, ok_bind, error_bind]) fun b hb => ?_
      refine bind_same _ (fun e he => by simp only [Cylinder.intersectInfinite, *, ok_bind, error_bind]) fun b hb => ?_
      refine bind_same _ (fun e he => by simp only [Cylinder.intersectInfinite, *, ok_bind, error_bind]) fun b hb => ?_
      refine bind_same _ (fun e he => by simp only [Cylinder.intersectInfinite, *, ok_bind, error_bind]) fun b hb => ?_
      refine bind_same _ (fun e he => by simp only [Cylinder.intersectInfinite, *, ok_bind, error_bind]) fun b hb => ?_
      refine bind_same _ (fun e he => by simp only [Cylinder.intersectInfinite, *, ok_bind, error_bind]) fun b hb => ?_
      refine bind_same _ (fun e he => by simp only [Cylinder.intersectInfinite, *, ok_bind, error_bind]) fun b hb => ?_
      rw [pySq_ok h, ok_bind]
    unfold Cylinder.intersectLinePy Cylinder.intersectLine
    split
    · rfl
    split
    · exact hinf
    unfold Cylinder.intersectFinitePy
    rw [hinf]
    refine bind_same _ (fun e he => by simp only [Cylinder.intersectFinite, he, error_bind]) fun a ha => ?_
    obtain ⟨pb, pt⟩ := a
    rcases pb with _ | pb <;> rcases pt with _ | pt <;>
      first
      | (simp only [Cylinder.intersectFinite, ha, ok_bind]; done)
      | (refine bind_same _ (fun e he => ?_) fun b hb => rfl
         simp only [Cylinder.intersectFinite, ha, ok_bind, he, error_bind])

theorem ovf_bind {α β : Type} {x : Res α} {f : α → Res β} (hx : OnlyValueError x)
    (hf : ∀ a, x = .ok a → RaisesOverflowError (f a) ∨ RaisesValueError (f a)) :
    RaisesOverflowError (x >>= f) ∨ RaisesValueError (x >>= f) := by
  cases x with
  | error e => obtain ⟨m, rfl⟩ := hx e rfl; exact .inr ⟨m, rfl⟩
  | ok a => exact hf a rfl

theorem ovfa_bind {α β : Type} {x : Res α} {f : α → Res β} (hx : OnlyValueOrAttributeError x)
    (hf : ∀ a, x = .ok a → RaisesOverflowError (f a) ∨ RaisesValueError (f a) ∨ RaisesAttributeError (f a)) :
    RaisesOverflowError (x >>= f) ∨ RaisesValueError (x >>= f) ∨ RaisesAttributeError (x >>= f) := by
  cases x with
  | error e =>
    obtain ⟨m, rfl | rfl⟩ := hx e rfl
    · exact .inr (.inl ⟨m, rfl⟩)
    · exact .inr (.inr ⟨m, rfl⟩)
  | ok a => exact hf a rfl

theorem ovf_pySq {β : Type} {x : K} (h : SquareOverflows x) (f : K → Res β) : RaisesOverflowError (pySq x >>= f) := by
  obtain ⟨m, hm⟩ := pySq_err h
  exact ⟨m, by rw [hm]; rfl⟩

/-- C107: if the square of the radius overflows, `area`, `surface_area` and `volume` raise `OverflowError`, and no intersection is
found, except the points on the two caps of a finite cylinder: the intersection methods raise `OverflowError` or `ValueError`
(or, for a cylinder, `AttributeError`: see `C100_attribute`). -/
theorem C107_overflow (c d : Circle K) (s : Sphere K) (y : Cylinder K) (l : Line K) :
    (SquareOverflows c.radius → RaisesOverflowError (Circle.areaPy c) ∧
      (RaisesOverflowError (Circle.intersectLinePy c l) ∨ RaisesValueError (Circle.intersectLinePy c l))) ∧
    (SquareOverflows c.radius ∨ SquareOverflows d.radius →
      RaisesOverflowError (Circle.intersectCirclePy c d) ∨ RaisesValueError (Circle.intersectCirclePy c d)) ∧
    (SquareOverflows s.radius → RaisesOverflowError (Sphere.surfaceAreaPy s) ∧
      (RaisesOverflowError (Sphere.intersectLinePy s l) ∨ RaisesValueError (Sphere.intersectLinePy s l))) ∧
    (CubeOverflows s.radius → RaisesOverflowError (Sphere.volumePy s)) ∧
    (SquareOverflows y.radius → RaisesOverflowError (Cylinder.surfaceAreaPy y) ∧ RaisesOverflowError (Cylinder.volumePy y) ∧
      ∀ k i, RaisesOverflowError (Cylinder.intersectLinePy y l k i) ∨ RaisesValueError (Cylinder.intersectLinePy y l k i) ∨
        RaisesAttributeError (Cylinder.intersectLinePy y l k i) ∨
        ∃ pb pt, i = false ∧ Cylinder.intersectCaps y l = .ok (some pb, some pt) ∧
          Cylinder.intersectLinePy y l k i = .ok (pb, pt)) := by
  refine ⟨fun h => ⟨ovf_pySq h _, ?_⟩, fun h => ?_, fun h => ⟨ovf_pySq h _, ?_⟩, fun h => ?_,
    fun h => ⟨ovf_pySq h _, ovf_pySq h _, fun k i => ?_⟩⟩
  · unfold Circle.intersectLinePy
    refine ovf_bind (ov_unit _) fun u hu => ovf_bind (ov_vadd _ _) fun p2 hp => ovf_bind (ov_vsub _ _) fun t1 ht1 =>
      ovf_bind (ov_vsub _ _) fun t2 ht2 => ?_
    split
    · exact .inl (ovf_pySq h _)
    · next hne =>
      refine .inr ⟨"too many values to unpack (expected 2)", ?_⟩
      simp only [Circle.intersectLine, hu, hp, ht1, ht2, ok_bind]
  · unfold Circle.intersectCirclePy
    refine ovf_bind (ov_distancePointP _ _) fun u hu => ?_
    split
    · next hc =>
      right
      simp only [Circle.intersectCircle, hu, ok_bind]
      split
      · exact ⟨_, rfl⟩
      split
      · exact ⟨_, rfl⟩
      split
      · exact ⟨_, rfl⟩
      · simp_all
    · rcases h with h | h
      · exact .inl (ovf_pySq h _)
      · by_cases h' : SquareOverflows c.radius
        · exact .inl (ovf_pySq h' _)
        · rw [pySq_ok h', ok_bind]
          exact .inl (ovf_pySq h _)
  · unfold Sphere.intersectLinePy
    exact ovf_bind (ov_fromPointsV _ _) fun u hu => ovf_bind (ov_unit _) fun p2 hp => ovf_bind (ov_dot _ _) fun t1 ht1 =>
      .inl (ovf_pySq h _)
  · obtain ⟨m, hm⟩ := pyCube_err h
    exact ⟨m, by rw [Sphere.volumePy, hm]; rfl⟩
  · have hinf : RaisesOverflowError (Cylinder.intersectInfinitePy y l k) ∨ RaisesValueError (Cylinder.intersectInfinitePy y l k) ∨
        RaisesAttributeError (Cylinder.intersectInfinitePy y l k) := by
      unfold Cylinder.intersectInfinitePy
      exact ovfa_bind (ov_unit _).orAttr fun _ _ => ovfa_bind (ov_unit _).orAttr fun _ _ =>
        ovfa_bind (ov_fromPointsV _ _).orAttr fun _ _ => ovfa_bind (ov_dot _ _).orAttr fun _ _ =>
        ovfa_bind (ov_vsub _ _).orAttr fun _ _ => ovfa_bind (ova_wrapped _ _) fun _ _ =>
        ovfa_bind (ov_dot _ _).orAttr fun _ _ => ovfa_bind (ov_vsub _ _).orAttr fun _ _ =>
        ovfa_bind (ov_dot _ _).orAttr fun _ _ => ovfa_bind (ova_wrapped _ _) fun _ _ => .inl (ovf_pySq h _)
    unfold Cylinder.intersectLinePy
    split
    · exact .inr (.inl ⟨_, rfl⟩)
    split
    · exact hinf.imp id (Or.imp id .inl)
    next hi =>
    unfold Cylinder.intersectFinitePy
    rcases hcap : Cylinder.intersectCaps y l with e | ⟨pb, pt⟩
    · obtain ⟨m, rfl | rfl⟩ := ova_intersectCaps y l e hcap
      · exact .inr (.inl ⟨m, rfl⟩)
      · exact .inr (.inr (.inl ⟨m, rfl⟩))
    · have key : ∀ r : Res (List K × List K), RaisesOverflowError (do let _ ← Cylinder.intersectInfinitePy y l k; r) ∨
          RaisesValueError (do let _ ← Cylinder.intersectInfinitePy y l k; r) ∨
          RaisesAttributeError (do let _ ← Cylinder.intersectInfinitePy y l k; r) := by
        intro r
        rcases hinf with ⟨m, hm⟩ | ⟨m, hm⟩ | ⟨m, hm⟩
        · exact .inl ⟨m, by rw [hm]; rfl⟩
        · exact .inr (.inl ⟨m, by rw [hm]; rfl⟩)
        · exact .inr (.inr ⟨m, by rw [hm]; rfl⟩)
      rcases pb with _ | pb <;> rcases pt with _ | pt
      · exact (key _).imp id (Or.imp id .inl)
      · exact (key _).imp id (Or.imp id .inl)
      · exact (key _).imp id (Or.imp id .inl)
      · exact .inr (.inr (.inr ⟨pb, pt, by simpa using hi, rfl, rfl⟩))

/-! ## binary64 -/

/-- A binary64 number below `2⁵¹²` is at most `(2⁵³ - 1) · 2⁴⁵⁹`. -/
theorem float_lt_512 {r : ℝ} (hf : IsFloat r) (h : |r| < (2 : ℝ) ^ (512 : ℤ)) : |r| ≤ (2 ^ 53 - 1 : ℕ) * (2 : ℝ) ^ (459 : ℤ) := by
  rcases lt_or_ge |r| ((2 : ℝ) ^ (511 : ℤ)) with h1 | h1
  · refine h1.le.trans ?_
    have : (2 : ℝ) ^ (511 : ℤ) = (2 ^ 52 : ℕ) * (2 : ℝ) ^ (459 : ℤ) := by
      rw [Nat.cast_pow, Nat.cast_ofNat, ← zpow_natCast, ← zpow_add₀ (by norm_num)]; norm_num
    rw [this]
    gcongr
    norm_num
  · have hlog : Int.log 2 |r| = 511 := by
      have := log_unique (x := |r|) (e := 511) (by exact_mod_cast h1) (by exact_mod_cast h)
      rwa [abs_abs] at this
    have hr : roundFloat r = r := by
      have h2 := hf
      simp only [IsFloat, binary64] at h2
      split at h2
      · cases h2
      split at h2
      · cases h2
      · exact XReal.fin.inj h2
    have hm : Mul2 (-459) r := by
      have := rintGrid_mul2 (-459) r
      rw [roundFloat, hlog] at hr
      norm_num at hr this ⊢
      rwa [hr] at this
    obtain ⟨z, hz⟩ := hm
    have h4 : (0 : ℝ) < (2 : ℝ) ^ (459 : ℤ) := by positivity
    have hz' : r = z * (2 : ℝ) ^ (459 : ℤ) := by
      rw [← hz, mul_assoc, ← zpow_add₀ (by norm_num)]; simp
    rw [hz', abs_mul, abs_of_pos h4] at h ⊢
    have h5 : |(z : ℝ)| < (2 : ℝ) ^ (53 : ℤ) := by
      have : (2 : ℝ) ^ (512 : ℤ) = (2 : ℝ) ^ (53 : ℤ) * (2 : ℝ) ^ (459 : ℤ) := by rw [← zpow_add₀ (by norm_num)]; norm_num
      rw [this] at h
      exact lt_of_mul_lt_mul_right h h4.le
    have h6 : |z| < 2 ^ 53 := by exact_mod_cast h5
    have h7 : |z| ≤ ((2 ^ 53 - 1 : ℕ) : ℤ) := by norm_num; omega
    gcongr
    exact_mod_cast h7

theorem sq_fin {r : ℝ} (hf : IsFloat r) (h : |r| < (2 : ℝ) ^ (512 : ℤ)) : ∃ z, binary64 (fin (r * r)) = fin z := by
  have h1 := float_lt_512 hf h
  have h2 : |r * r| ≤ (2 ^ 53 - 1 : ℕ) * (2 : ℝ) ^ (971 : ℤ) := by
    rw [abs_mul]
    calc |r| * |r| ≤ ((2 ^ 53 - 1 : ℕ) * (2 : ℝ) ^ (459 : ℤ)) * ((2 ^ 53 - 1 : ℕ) * (2 : ℝ) ^ (459 : ℤ)) := by gcongr
      _ ≤ ((2 ^ 53 - 1 : ℕ) * (2 : ℝ) ^ (459 : ℤ)) * ((2 : ℝ) ^ (53 : ℤ) * (2 : ℝ) ^ (459 : ℤ)) := by gcongr; norm_num
      _ = (2 ^ 53 - 1 : ℕ) * (2 : ℝ) ^ (971 : ℤ) := by
        rw [mul_assoc, ← zpow_add₀ (by norm_num), ← zpow_add₀ (by norm_num)]; norm_num
  have h3 := roundFloat_le (rn_repr (j := 2 ^ 53 - 1) (by norm_num) 971)
    (Mul2.mono (m := -971) ⟨(2 ^ 53 - 1 : ℕ), by rw [mul_assoc, ← zpow_add₀ (by norm_num)]; simp⟩ (by omega)) h2
  have h4 : ((2 ^ 53 - 1 : ℕ) : ℝ) * (2 : ℝ) ^ (971 : ℤ) < 2 ^ 1024 := by
    have : (2 : ℝ) ^ 1024 = (2 : ℝ) ^ (53 : ℤ) * (2 : ℝ) ^ (971 : ℤ) := by
      rw [← zpow_add₀ (by norm_num), ← zpow_natCast]; norm_num
    rw [this]
    gcongr
    norm_num
  obtain ⟨h5, h6⟩ := abs_le.mp h3
  refine ⟨roundFloat (r * r), ?_⟩
  simp only [binary64]
  rw [if_neg fun h => absurd (h.trans h6) (not_le.mpr h4), if_neg fun h => absurd (neg_le_neg_iff.mp (h5.trans h)) (not_le.mpr h4)]

theorem sq_inf {r : ℝ} (h : (2 : ℝ) ^ (512 : ℤ) ≤ r) : binary64 (fin (r * r)) = posInf := by
  apply binary64_overflow
  calc (2 : ℝ) ^ (1024 : ℤ) = (2 : ℝ) ^ (512 : ℤ) * (2 : ℝ) ^ (512 : ℤ) := by rw [← zpow_add₀ (by norm_num)]; norm_num
    _ ≤ r * r := by gcongr; exact (by positivity : (0 : ℝ) ≤ (2 : ℝ) ^ (512 : ℤ)).trans h

/-- C107: the square of a binary64 number overflows exactly from `2⁵¹²` (about `1.3e154`) on, the cube from `2³⁴²` on, and not up to
`2³⁴¹` (about `9e102` and `4e102`). -/
theorem C107_binary64 {r : ℝ} (hf : IsFloat r) (h0 : 0 < r) :
    (@SquareOverflows XReal ieee (fin r) ↔ (2 : ℝ) ^ (512 : ℤ) ≤ r) ∧
    ((2 : ℝ) ^ (342 : ℤ) ≤ r → @CubeOverflows XReal ieee (fin r)) ∧
    (r ≤ (2 : ℝ) ^ (341 : ℤ) → ¬ @CubeOverflows XReal ieee (fin r)) := by
  refine ⟨⟨fun h => ?_, fun h => ⟨rfl, ?_⟩⟩, fun h => ⟨rfl, ?_⟩, fun h h' => ?_⟩
  · by_contra hlt
    obtain ⟨z, hz⟩ := sq_fin hf (by rwa [abs_of_pos h0, ← not_le])
    have h2 := h.2
    rw [xmul, xfin] at h2
    simp only [XReal.mul, hz, XReal.isFinite, Bool.true_eq_false] at h2
  · rw [xmul, xfin]
    simp only [XReal.mul, sq_inf h, XReal.isFinite]
  · rw [xmul, xmul, xfin]
    simp only [XReal.mul]
    rcases le_or_gt ((2 : ℝ) ^ (512 : ℤ)) r with h5 | h5
    · rw [sq_inf h5]
      simp [XReal.mul, XReal.sgn, XReal.ofSign, h0, binary64, XReal.isFinite]
    · obtain ⟨z, hz⟩ := sq_fin hf (by rwa [abs_of_pos h0])
      have h1 : (2 : ℝ) ^ (684 : ℤ) ≤ r * r := by
        calc (2 : ℝ) ^ (684 : ℤ) = (2 : ℝ) ^ (342 : ℤ) * (2 : ℝ) ^ (342 : ℤ) := by rw [← zpow_add₀ (by norm_num)]; norm_num
          _ ≤ r * r := by gcongr
      have h2 : (2 : ℝ) ^ (684 : ℤ) ≤ z := by
        have hz' : roundFloat (r * r) = z := by
          simp only [binary64] at hz
          split at hz
          · cases hz
          split at hz
          · cases hz
          · exact XReal.fin.inj hz
        rw [← hz', roundFloat_eq (.inr (by
          rw [abs_of_pos (by positivity)]; exact (zpow_le_zpow_right₀ (by norm_num) (by norm_num)).trans h1)), ← rn_pow]
        exact roundNearest_mono (p := 53) (by norm_num) h1
      rw [hz]
      have h3 : binary64 (fin (z * r)) = posInf := by
        apply binary64_overflow
        calc (2 : ℝ) ^ (1024 : ℤ) ≤ (2 : ℝ) ^ (684 + 342 : ℤ) := zpow_le_zpow_right₀ (by norm_num) (by norm_num)
          _ = (2 : ℝ) ^ (684 : ℤ) * (2 : ℝ) ^ (342 : ℤ) := by rw [← zpow_add₀ (by norm_num)]
          _ ≤ z * r := by gcongr; exact (by positivity : (0 : ℝ) ≤ (2 : ℝ) ^ (684 : ℤ)).trans h2
      simp only [XReal.mul, h3, XReal.isFinite]
  · have h2 := h'.2
    rw [xmul, xmul, xfin] at h2
    simp only [XReal.mul] at h2
    obtain ⟨z, hz, hz'⟩ := binary64_of_le (y := r * r) (M := 682) (j := 1) (by norm_num) (by norm_num) (by norm_num) (by
      rw [abs_of_pos (by positivity), Nat.cast_one, one_mul]
      calc r * r ≤ (2 : ℝ) ^ (341 : ℤ) * (2 : ℝ) ^ (341 : ℤ) := by gcongr
        _ = (2 : ℝ) ^ (682 : ℤ) := by rw [← zpow_add₀ (by norm_num)]; norm_num)
    obtain ⟨w, hw, -⟩ := binary64_of_le (y := z * r) (M := 970) (j := 2 ^ 53) (by norm_num) (by norm_num) (by norm_num) (by
      rw [abs_mul, abs_of_pos h0]
      rw [Nat.cast_one, one_mul] at hz'
      calc |z| * r ≤ (2 : ℝ) ^ (682 : ℤ) * (2 : ℝ) ^ (341 : ℤ) := by gcongr
        _ = (2 : ℝ) ^ (53 : ℤ) * (2 : ℝ) ^ (970 : ℤ) := by rw [← zpow_add₀ (by norm_num), ← zpow_add₀ (by norm_num)]; norm_num
        _ = _ := by norm_num)
    rw [hz] at h2
    simp only [XReal.mul, hw, XReal.isFinite, Bool.true_eq_false] at h2

/-- Infinite multiples of an array of floats are not finite. -/
theorem smul_inf_bad {t : XReal} (ht : t = posInf ∨ t = negInf) (x : ℝ) :
    XReal.isFinite (@PyNum.mul XReal ieee t (fin x)) = false := by
  rw [xmul]
  rcases ht with rfl | rfl <;> simp only [XReal.mul, XReal.ofSign] <;> split <;> first | rfl | (split <;> rfl)

theorem add_bad {a : XReal} (ha : XReal.isFinite a = false) (x : ℝ) :
    XReal.isFinite (@PyNum.add XReal ieee (fin x) a) = false := by
  rw [xadd]
  cases a <;> first | rfl | cases ha

/-- A point an infinite distance along a line is rejected by the constructor. -/
theorem move_inf {t : XReal} (ht : t = posInf ∨ t = negInf) (p u : E 3) :
    ∃ a m, @vadd XReal ieee (xarr p) (@smul XReal ieee t (xarr u)) = .ok a ∧ @new1D XReal ieee a = .error (.valueError m) := by
  refine ⟨[@PyNum.add XReal ieee (fin (p 0)) (@PyNum.mul XReal ieee t (fin (u 0))),
    @PyNum.add XReal ieee (fin (p 1)) (@PyNum.mul XReal ieee t (fin (u 1))),
    @PyNum.add XReal ieee (fin (p 2)) (@PyNum.mul XReal ieee t (fin (u 2)))],
    "The values must all be finite.", by rw [xarr3, xarr3]; rfl, ?_⟩
  have h : ∀ i : Fin 3, XReal.isFinite (@PyNum.add XReal ieee (fin (p i)) (@PyNum.mul XReal ieee t (fin (u i)))) = false :=
    fun i => add_bad (smul_inf_bad ht _) _
  simp only [new1D, List.length_cons, List.length_nil, List.all_cons, xfin, h]
  rfl

/-- C107: a line and a sphere of radius at least `2⁵¹²` around it.  In fact they intersect, but `sphere.intersect_line` raises
`OverflowError` if the radius is a Python float, and `ValueError` if it is a `np.float64`. -/
theorem C107_sphere_intersect_line {c p v : E 3} {r : ℝ} (hc : ModerateV c) (hp : ModerateV p) (hv : ModerateV v) (hv0 : v ≠ 0)
    (hf : IsFloat r) (hr : (2 : ℝ) ^ (512 : ℤ) ≤ r) :
    RaisesOverflowError (@Sphere.intersectLinePy XReal ieee ⟨xarr c, fin r⟩ ⟨xarr p, xarr v⟩) ∧
    RaisesValueError (@Sphere.intersectLine XReal ieee ⟨xarr c, fin r⟩ ⟨xarr p, xarr v⟩) := by
  classical
  have hr0 : 0 < r := lt_of_lt_of_le (by positivity) hr
  obtain ⟨w, w1, w2, w3⟩ := fromPoints_ie hc hp
  obtain ⟨u, u1, u2, u3⟩ := unit_ie (by norm_num) hv.rv (by norm_num) (by norm_num) (by norm_num) (by norm_num) hv0
  obtain ⟨-, d1, d2⟩ := ieee_dot (by norm_num) u3 w3 (by norm_num) (by norm_num)
  constructor
  · simp only [Sphere.intersectLinePy, w2, u2, d1, ok_bind]
    exact @ovf_pySq XReal ieee _ _ (((C107_binary64 hf hr0).1).mpr hr) _
  obtain ⟨n1, n2⟩ := ieee_norm (by norm_num) w3 (by norm_num) (by norm_num)
  obtain ⟨a1, a2⟩ := ieee_mul d2 d2 (by norm_num) (by norm_num)
  obtain ⟨b1, b2⟩ := ieee_mul n2 n2 (by norm_num) (by norm_num)
  have c1 : @PyNum.mul XReal ieee (fin r) (fin r) = posInf := by
    rw [xmul]; simp only [XReal.mul, sq_inf hr]
  have e1 : ∀ x : ℝ, @PyNum.sub XReal ieee (fin x) posInf = negInf := fun _ => rfl
  have e2 : ∀ x : ℝ, @PyNum.sub XReal ieee (fin x) negInf = posInf := fun _ => rfl
  have e3 : @mathSqrt XReal ieee posInf = .ok posInf := rfl
  have e4 : @PyNum.mul XReal ieee (@PyNum.ofInt XReal ieee (-1)) posInf = negInf := by
    rw [xmul, ieee_ofInt]
    have : XReal.mul (fin ((-1 : ℤ) : ℝ)) posInf = negInf := by
      have h : ∀ s : ℝ, s < 0 → XReal.ofSign s = negInf := fun s hs => by
        simp [XReal.ofSign, hs, hs.not_gt]
      exact h _ (by simp [XReal.sgn])
    rw [this]; rfl
  have e5 : ∀ x : ℝ, @PyNum.add XReal ieee (@PyNum.neg XReal ieee (fin x)) negInf = negInf := fun _ => rfl
  simp only [Sphere.intersectLine, w2, u2, ok_bind, d1, sq, Vec.norm, n1, a1, b1, c1, e1, e2, e3, e4, e5]
  obtain ⟨a, m, h1, h2⟩ := move_inf (.inr rfl) p u
  have h3 : @PyNum.lt XReal ieee posInf (@zero XReal ieee) = false := rfl
  rw [h3]
  simp only [Bool.false_eq_true, if_false, h1, ok_bind, h2]
  have e6 : ∀ x : ℝ, @PyNum.add XReal ieee (@PyNum.neg XReal ieee (fin x)) posInf = posInf := fun _ => rfl
  have e7 : @PyNum.mul XReal ieee (@PyNum.ofInt XReal ieee 1) posInf = posInf := by
    rw [xmul, ieee_ofInt]; simp [XReal.mul, XReal.sgn, XReal.ofSign, binary64]
  obtain ⟨a', m', h1', h2'⟩ := move_inf (.inl rfl) p u
  simp only [e6, e7, h1', ok_bind]
  exact ⟨m, rfl⟩

/-- The hypotheses are met: the sphere of radius `2⁵²⁰` around the origin and the x-axis. -/
example : ModerateV (vec3 0 0 0) ∧ ModerateV (vec3 ((1 : ℤ) : ℝ) 0 0) ∧ vec3 ((1 : ℤ) : ℝ) 0 0 ≠ 0 ∧ IsFloat ((2 : ℝ) ^ (520 : ℤ)) ∧
    (2 : ℝ) ^ (512 : ℤ) ≤ (2 : ℝ) ^ (520 : ℤ) := by
  refine ⟨moderate_vec3 moderate_zero moderate_zero moderate_zero, moderate_vec3 (moderate_int (by norm_num)) moderate_zero moderate_zero,
    ?_, isFloat_pow (by norm_num) (by norm_num), zpow_le_zpow_right₀ (by norm_num) (by norm_num)⟩
  intro h
  have := congrArg (fun x : E 3 => x 0) h
  simp [vec3] at this

end SkSpatial
