import Verif.Spec.Ieee
import Verif.Lemmas.Rounding
import Verif.Lemmas.RoundNearest
import Verif.Lemmas.XReal
/-! # IEEE binary64 agrees with the unbounded rounding inside a range

`Rng m M x`: `x` is an integer multiple of `2⁻ᵐ` of magnitude at most `2ᴹ`.  In such a range no operation underflows or overflows.
-/

namespace SkSpatial
open XReal StdRounding

/-- `x` is an integer multiple of `2⁻ᵐ`. -/
def Mul2 (m : ℤ) (x : ℝ) : Prop := ∃ k : ℤ, x * (2 : ℝ) ^ m = k

def Rng (m M : ℤ) (x : ℝ) : Prop := Mul2 m x ∧ |x| ≤ (2 : ℝ) ^ M

theorem zpow_int {k : ℤ} (hk : 0 ≤ k) : (2 : ℝ) ^ k = ((2 ^ k.toNat : ℤ) : ℝ) := by
  obtain ⟨j, rfl⟩ := Int.eq_ofNat_of_zero_le hk
  simp

theorem Mul2.mono {m m' : ℤ} {x : ℝ} (h : Mul2 m x) (hm : m ≤ m') : Mul2 m' x := by
  obtain ⟨k, hk⟩ := h
  refine ⟨k * 2 ^ (m' - m).toNat, ?_⟩
  rw [show m' = m + (m' - m) by ring, zpow_add₀ (by norm_num), ← mul_assoc, hk, zpow_int (by omega : 0 ≤ m' - m)]
  push_cast
  rw [show m + (m' - m) - m = m' - m by ring]

theorem Mul2.zero (m : ℤ) : Mul2 m 0 := ⟨0, by simp⟩

theorem Mul2.neg {m : ℤ} {x : ℝ} (h : Mul2 m x) : Mul2 m (-x) := by
  obtain ⟨k, hk⟩ := h
  exact ⟨-k, by push_cast; rw [← hk]; ring⟩

theorem Mul2.add {m : ℤ} {x y : ℝ} (h : Mul2 m x) (h' : Mul2 m y) : Mul2 m (x + y) := by
  obtain ⟨k, hk⟩ := h
  obtain ⟨j, hj⟩ := h'
  exact ⟨k + j, by push_cast; rw [add_mul, hk, hj]⟩

theorem Mul2.sub {m : ℤ} {x y : ℝ} (h : Mul2 m x) (h' : Mul2 m y) : Mul2 m (x - y) := by
  rw [sub_eq_add_neg]; exact h.add h'.neg

theorem Mul2.mul {m m' : ℤ} {x y : ℝ} (h : Mul2 m x) (h' : Mul2 m' y) : Mul2 (m + m') (x * y) := by
  obtain ⟨k, hk⟩ := h
  obtain ⟨j, hj⟩ := h'
  refine ⟨k * j, ?_⟩
  push_cast
  rw [zpow_add₀ (by norm_num), ← hk, ← hj]; ring

theorem Mul2.abs {m : ℤ} {x : ℝ} (h : Mul2 m x) : Mul2 m |x| := by
  rcases abs_choice x with e | e <;> rw [e]
  · exact h
  · exact h.neg

/-- A non-zero multiple of `2⁻ᵐ` is at least `2⁻ᵐ`. -/
theorem Mul2.le_abs {m : ℤ} {x : ℝ} (h : Mul2 m x) (hx : x ≠ 0) : (2 : ℝ) ^ (-m) ≤ |x| := by
  obtain ⟨k, hk⟩ := h
  have h2 : (0 : ℝ) < (2 : ℝ) ^ m := by positivity
  have hk0 : k ≠ 0 := by
    rintro rfl
    simp only [Int.cast_zero, mul_eq_zero] at hk
    exact hk.elim hx h2.ne'
  rw [zpow_neg, ← one_div, div_le_iff₀ h2]
  have : |x| * (2 : ℝ) ^ m = |(k : ℝ)| := by rw [← hk, abs_mul, abs_of_pos h2]
  rw [this]
  exact_mod_cast Int.one_le_abs hk0

/-- Rounding on the grid of spacing `2⁻ᴷ`. -/
theorem rintGrid_mul2 (K : ℤ) (x : ℝ) : Mul2 K (rintReal (x * (2 : ℝ) ^ K) / (2 : ℝ) ^ K) := by
  obtain ⟨z, hz, -⟩ := rintReal_spec (x * (2 : ℝ) ^ K)
  exact ⟨z, by rw [hz, div_mul_cancel₀ _ (by positivity)]⟩

theorem rintGrid_self {K m : ℤ} {x : ℝ} (h : Mul2 m x) (hm : m ≤ K) : rintReal (x * (2 : ℝ) ^ K) / (2 : ℝ) ^ K = x := by
  obtain ⟨z, hz⟩ := h.mono hm
  rw [hz, rintReal_int, ← hz, mul_div_cancel_right₀ _ (by positivity)]

theorem rn_def (x : ℝ) : roundNearest 53 x = rintReal (x * (2 : ℝ) ^ (52 - Int.log 2 |x|)) / (2 : ℝ) ^ (52 - Int.log 2 |x|) := by
  unfold roundNearest
  norm_num

theorem rn_mul2 {m : ℤ} {x : ℝ} (h : Mul2 m x) : Mul2 m (roundNearest 53 x) := by
  rw [rn_def]
  rcases le_total m (52 - Int.log 2 |x|) with hm | hm
  · rw [rintGrid_self h hm]; exact h
  · exact (rintGrid_mul2 _ x).mono hm

/-- Integers up to `2⁵³`, scaled by a power of two, are representable. -/
theorem rn_repr {j : ℕ} (hj : j ≤ 2 ^ 53) (M : ℤ) : roundNearest 53 (j * (2 : ℝ) ^ M) = j * (2 : ℝ) ^ M := by
  rcases Nat.eq_zero_or_pos j with rfl | hj0
  · simp [roundNearest_zero]
  rw [rn_def]
  obtain ⟨x, hx⟩ : ∃ x, x = (j : ℝ) * (2 : ℝ) ^ M := ⟨_, rfl⟩
  rw [← hx]
  have hjr : (1 : ℝ) ≤ j := by exact_mod_cast hj0
  have hx0 : 0 < x := by rw [hx]; positivity
  rw [abs_of_pos hx0]
  have hl : (2 : ℝ) ^ (Int.log 2 x) ≤ x := by exact_mod_cast Int.zpow_log_le_self (b := 2) (by norm_num) hx0
  have hub : x ≤ (2 : ℝ) ^ (53 + M) := by
    rw [hx, zpow_add₀ (by norm_num)]
    gcongr
    exact_mod_cast hj
  have h1 : Int.log 2 x ≤ 53 + M := (zpow_le_zpow_iff_right₀ (by norm_num : (1 : ℝ) < 2)).mp (hl.trans hub)
  have hmul : Mul2 (-M) x := ⟨j, by
    rw [hx, mul_assoc, ← zpow_add₀ (by norm_num)]; simp⟩
  rcases h1.lt_or_eq with h2 | h2
  · exact rintGrid_self hmul (by omega)
  · have hxe : x = (2 : ℝ) ^ (53 + M) := le_antisymm hub (h2 ▸ hl)
    refine rintGrid_self (m := -(53 + M)) ⟨1, ?_⟩ (by omega)
    rw [hxe, ← zpow_add₀ (by norm_num)]; simp

theorem rn_abs_le {x c : ℝ} (hc : roundNearest 53 c = c) (h : |x| ≤ c) : |roundNearest 53 x| ≤ c := by
  have hm := roundNearest_mono (p := 53) (by norm_num)
  obtain ⟨h1, h2⟩ := abs_le.mp h
  rw [abs_le]
  constructor
  · have := hm h1; rwa [roundNearest_neg, hc] at this
  · have := hm h2; rwa [hc] at this

theorem rn_pow (M : ℤ) : roundNearest 53 ((2 : ℝ) ^ M) = (2 : ℝ) ^ M := by
  have := rn_repr (j := 1) (by norm_num) M
  simpa using this

theorem rn_rng {m M : ℤ} {x : ℝ} (h : Rng m M x) : Rng m M (roundNearest 53 x) :=
  ⟨rn_mul2 h.1, rn_abs_le (rn_pow M) h.2⟩

/-- A number of magnitude at least `2⁻ˢ` rounds to a multiple of `2⁻⁽ˢ⁺⁵²⁾`. -/
theorem rn_mul2_of_le {s : ℤ} {x : ℝ} (h : x = 0 ∨ (2 : ℝ) ^ (-s) ≤ |x|) : Mul2 (s + 52) (roundNearest 53 x) := by
  rcases h with rfl | h
  · rw [roundNearest_zero]; exact Mul2.zero _
  · rw [rn_def]
    have hx0 : 0 < |x| := lt_of_lt_of_le (by positivity) h
    have hu : |x| < (2 : ℝ) ^ (Int.log 2 |x| + 1) := by exact_mod_cast Int.lt_zpow_succ_log_self (b := 2) (by norm_num) |x|
    have : -s < Int.log 2 |x| + 1 := (zpow_lt_zpow_iff_right₀ (by norm_num : (1 : ℝ) < 2)).mp (h.trans_lt hu)
    exact (rintGrid_mul2 _ x).mono (by omega)

/-- No underflow: the two roundings agree. -/
theorem roundFloat_eq {x : ℝ} (h : Mul2 1074 x ∨ (2 : ℝ) ^ (-1022 : ℤ) ≤ |x|) : roundFloat x = roundNearest 53 x := by
  rw [rn_def, roundFloat]
  rcases le_total (52 - Int.log 2 |x|) 1074 with hk | hk
  · rw [min_eq_left hk]
  · rw [min_eq_right hk]
    rcases h with h | h
    · rw [rintGrid_self h le_rfl, rintGrid_self h hk]
    · have hx0 : 0 < |x| := lt_of_lt_of_le (by positivity) h
      have hu : |x| < (2 : ℝ) ^ (Int.log 2 |x| + 1) := by exact_mod_cast Int.lt_zpow_succ_log_self (b := 2) (by norm_num) |x|
      have : -1022 < Int.log 2 |x| + 1 := (zpow_lt_zpow_iff_right₀ (by norm_num : (1 : ℝ) < 2)).mp (h.trans_lt hu)
      rw [show 52 - Int.log 2 |x| = 1074 by omega]

/-- No underflow, no overflow: `binary64` is rounding with 53 bits. -/
theorem binary64_fin {x : ℝ} (h : Mul2 1074 x ∨ (2 : ℝ) ^ (-1022 : ℤ) ≤ |x|) (hM : |x| ≤ (2 : ℝ) ^ (1023 : ℤ)) :
    binary64 (fin x) = fin (roundNearest 53 x) := by
  have h1 := abs_le.mp (rn_abs_le (rn_pow 1023) hM)
  have h2 : (2 : ℝ) ^ (1023 : ℤ) < 2 ^ 1024 := by
    rw [← zpow_natCast]; exact zpow_lt_zpow_right₀ (by norm_num) (by norm_num)
  simp only [binary64, roundFloat_eq h]
  rw [if_neg fun h => absurd (h.trans h1.2) (not_le.mpr h2),
    if_neg fun h => absurd (neg_le_neg_iff.mp (h1.1.trans h)) (not_le.mpr h2)]

/-! ### The operations -/

theorem Rng.mono {m m' M M' : ℤ} {x : ℝ} (h : Rng m M x) (hm : m ≤ m') (hM : M ≤ M') : Rng m' M' x :=
  ⟨h.1.mono hm, h.2.trans (zpow_le_zpow_right₀ (by norm_num) hM)⟩

theorem Rng.zero (m M : ℤ) : Rng m M 0 := ⟨Mul2.zero m, by rw [abs_zero]; positivity⟩
theorem Rng.neg {m M : ℤ} {x : ℝ} (h : Rng m M x) : Rng m M (-x) := ⟨h.1.neg, by rw [abs_neg]; exact h.2⟩
theorem Rng.abs {m M : ℤ} {x : ℝ} (h : Rng m M x) : Rng m M |x| := ⟨h.1.abs, by rw [abs_abs]; exact h.2⟩

theorem Rng.add {m M : ℤ} {x y : ℝ} (h : Rng m M x) (h' : Rng m M y) : Rng m (M + 1) (x + y) := by
  refine ⟨h.1.add h'.1, (abs_add_le x y).trans ?_⟩
  rw [zpow_add₀ (by norm_num), zpow_one]
  linarith [h.2, h'.2]

theorem Rng.sub {m M : ℤ} {x y : ℝ} (h : Rng m M x) (h' : Rng m M y) : Rng m (M + 1) (x - y) := by
  rw [sub_eq_add_neg]; exact h.add h'.neg

theorem Rng.mul {m M m' M' : ℤ} {x y : ℝ} (h : Rng m M x) (h' : Rng m' M' y) : Rng (m + m') (M + M') (x * y) := by
  refine ⟨h.1.mul h'.1, ?_⟩
  rw [abs_mul, zpow_add₀ (by norm_num)]
  exact mul_le_mul h.2 h'.2 (abs_nonneg _) (by positivity)

theorem binary64_rng {m M : ℤ} {x : ℝ} (h : Rng m M x) (hm : m ≤ 1074) (hM : M ≤ 1023) :
    binary64 (fin x) = fin (roundNearest 53 x) :=
  binary64_fin (.inl (h.1.mono hm)) (h.mono hm hM).2

theorem ieee_add {m M : ℤ} {x y : ℝ} (h : Rng m M x) (h' : Rng m M y) (hm : m ≤ 1074) (hM : M ≤ 1022) :
    @PyNum.add XReal ieee (fin x) (fin y) = fin (@PyNum.add ℝ (rounded (leftToRight (roundNearest 53))) x y) ∧
      Rng m (M + 1) (@PyNum.add ℝ (rounded (leftToRight (roundNearest 53))) x y) :=
  ⟨binary64_rng (h.add h') hm (by omega), rn_rng (h.add h')⟩

theorem ieee_sub {m M : ℤ} {x y : ℝ} (h : Rng m M x) (h' : Rng m M y) (hm : m ≤ 1074) (hM : M ≤ 1022) :
    @PyNum.sub XReal ieee (fin x) (fin y) = fin (@PyNum.sub ℝ (rounded (leftToRight (roundNearest 53))) x y) ∧
      Rng m (M + 1) (@PyNum.sub ℝ (rounded (leftToRight (roundNearest 53))) x y) := by
  refine ⟨?_, rn_rng (h.sub h')⟩
  show binary64 (XReal.add (fin x) (fin (-y))) = _
  rw [show XReal.add (fin x) (fin (-y)) = fin (x - y) by simp [XReal.add, sub_eq_add_neg]]
  exact binary64_rng (h.sub h') hm (by omega)

theorem ieee_mul {m M m' M' : ℤ} {x y : ℝ} (h : Rng m M x) (h' : Rng m' M' y) (hm : m + m' ≤ 1074) (hM : M + M' ≤ 1023) :
    @PyNum.mul XReal ieee (fin x) (fin y) = fin (@PyNum.mul ℝ (rounded (leftToRight (roundNearest 53))) x y) ∧
      Rng (m + m') (M + M') (@PyNum.mul ℝ (rounded (leftToRight (roundNearest 53))) x y) :=
  ⟨binary64_rng (h.mul h') hm hM, rn_rng (h.mul h')⟩

theorem ieee_div {m M m' M' : ℤ} {x y : ℝ} (h : Rng m M x) (h' : Rng m' M' y) (hy : y ≠ 0) (hm : m + M' ≤ 1022)
    (hM : M + m' ≤ 1023) :
    @PyNum.div XReal ieee (fin x) (fin y) = fin (@PyNum.div ℝ (rounded (leftToRight (roundNearest 53))) x y) ∧
      Rng (m + M' + 52) (M + m') (@PyNum.div ℝ (rounded (leftToRight (roundNearest 53))) x y) := by
  have hy0 : 0 < |y| := abs_pos.mpr hy
  have hl := h'.1.le_abs hy
  have hub : |x / y| ≤ (2 : ℝ) ^ (M + m') := by
    rw [abs_div, div_le_iff₀ hy0, zpow_add₀ (by norm_num)]
    calc |x| ≤ (2 : ℝ) ^ M := h.2
      _ = (2 : ℝ) ^ M * (2 : ℝ) ^ m' * (2 : ℝ) ^ (-m') := by
          rw [mul_assoc, ← zpow_add₀ (by norm_num : (2 : ℝ) ≠ 0)]; simp
      _ ≤ _ := by gcongr
  have hlb : x / y = 0 ∨ (2 : ℝ) ^ (-(m + M')) ≤ |x / y| := by
    rcases eq_or_ne x 0 with rfl | hx
    · left; simp
    · right
      rw [abs_div, le_div_iff₀ hy0, neg_add, zpow_add₀ (by norm_num)]
      calc (2 : ℝ) ^ (-m) * (2 : ℝ) ^ (-M') * |y| ≤ (2 : ℝ) ^ (-m) * (2 : ℝ) ^ (-M') * (2 : ℝ) ^ M' := by
            gcongr; exact h'.2
        _ = (2 : ℝ) ^ (-m) := by rw [mul_assoc, ← zpow_add₀ (by norm_num : (2 : ℝ) ≠ 0)]; simp
        _ ≤ _ := h.1.le_abs hx
  refine ⟨?_, rn_mul2_of_le hlb, rn_abs_le (rn_pow _) hub⟩
  show binary64 (XReal.div (fin x) (fin y)) = _
  rw [show XReal.div (fin x) (fin y) = fin (x / y) by simp [XReal.div, hy]]
  refine binary64_fin ?_ (hub.trans (zpow_le_zpow_right₀ (by norm_num) hM))
  rcases hlb with h0 | h0
  · left; rw [h0]; exact Mul2.zero _
  · right; exact (zpow_le_zpow_right₀ (by norm_num) (by omega)).trans h0

theorem ieee_sqrt {m M : ℤ} {x : ℝ} (h : Rng (2 * m) (2 * M) x) (hx : 0 ≤ x) (hm : m ≤ 1022) (hM : M ≤ 1023) :
    @PyNum.sqrt XReal ieee (fin x) = fin (@PyNum.sqrt ℝ (rounded (leftToRight (roundNearest 53))) x) ∧
      Rng (m + 52) M (@PyNum.sqrt ℝ (rounded (leftToRight (roundNearest 53))) x) := by
  have hsq : ∀ k : ℤ, (2 : ℝ) ^ (2 * k) = ((2 : ℝ) ^ k) ^ 2 := fun k => by
    rw [← zpow_natCast, ← zpow_mul, mul_comm]; norm_num
  have hub : |Real.sqrt x| ≤ (2 : ℝ) ^ M := by
    rw [abs_of_nonneg (Real.sqrt_nonneg x)]
    refine Real.sqrt_le_iff.mpr ⟨by positivity, ?_⟩
    rw [← hsq]; exact (le_abs_self x).trans h.2
  have hlb : Real.sqrt x = 0 ∨ (2 : ℝ) ^ (-m) ≤ |Real.sqrt x| := by
    rcases eq_or_ne x 0 with rfl | h0
    · left; simp
    · right
      rw [abs_of_nonneg (Real.sqrt_nonneg x)]
      refine Real.le_sqrt_of_sq_le ?_
      rw [← hsq, mul_neg]
      exact (h.1.le_abs h0).trans_eq (abs_of_nonneg hx)
  refine ⟨?_, rn_mul2_of_le hlb, rn_abs_le (rn_pow _) hub⟩
  show binary64 (XReal.sqrt (fin x)) = _
  rw [show XReal.sqrt (fin x) = fin (Real.sqrt x) by simp [XReal.sqrt, not_lt.mpr hx]]
  refine binary64_fin ?_ (hub.trans (zpow_le_zpow_right₀ (by norm_num) hM))
  rcases hlb with h0 | h0
  · left; rw [h0]; exact Mul2.zero _
  · right; exact (zpow_le_zpow_right₀ (by norm_num) (by omega)).trans h0

section
variable (x y : ℝ)
theorem ieee_lt : @PyNum.lt XReal ieee (fin x) (fin y) = @PyNum.lt ℝ (rounded (leftToRight (roundNearest 53))) x y := by
  rw [lt_rd]; show @decide _ _ = @decide _ _; congr
theorem ieee_eq : @PyNum.eq XReal ieee (fin x) (fin y) = @PyNum.eq ℝ (rounded (leftToRight (roundNearest 53))) x y := by
  rw [eq_rd]; show @decide _ _ = @decide _ _; congr
theorem ieee_le : @PyNum.le XReal ieee (fin x) (fin y) = @PyNum.le ℝ (rounded (leftToRight (roundNearest 53))) x y := by
  rw [le_rd]
  show (XReal.lt (fin x) (fin y) || XReal.eq (fin x) (fin y)) = _
  simp only [XReal.lt, XReal.eq]
  rw [Bool.eq_iff_iff]
  simp [le_iff_lt_or_eq]
theorem ieee_neg : @PyNum.neg XReal ieee (fin x) = fin (@PyNum.neg ℝ (rounded (leftToRight (roundNearest 53))) x) := rfl
theorem ieee_abs : @PyNum.abs XReal ieee (fin x) = fin (@PyNum.abs ℝ (rounded (leftToRight (roundNearest 53))) x) := rfl
theorem ieee_isFinite : @PyNum.isFinite XReal ieee (fin x) = true := rfl
theorem ieee_toFloat (a : XReal) : @PyNum.toFloat XReal ieee a = a := rfl
theorem ieee_ofInt (k : ℤ) : @PyNum.ofInt XReal ieee k = fin k := rfl
theorem ieee_zero : @zero XReal ieee = fin (@zero ℝ (rounded (leftToRight (roundNearest 53)))) := rfl
theorem ieee_one : @one XReal ieee = fin (@one ℝ (rounded (leftToRight (roundNearest 53)))) := rfl
end

theorem Rng.int {k : ℕ} {M : ℤ} (h : (k : ℝ) ≤ (2 : ℝ) ^ M) : Rng 0 M (k : ℝ) :=
  ⟨⟨k, by simp⟩, by rwa [abs_of_nonneg (Nat.cast_nonneg k)]⟩

theorem Rng.one : Rng 0 0 1 := by simpa using Rng.int (k := 1) (M := 0) (by simp)

/-! ### Sums and arrays -/

theorem ieee_foldl {m M : ℤ} (hm : m ≤ 1074) (hM : M + 53 ≤ 1023) : ∀ (l : List ℝ), (∀ x ∈ l, Rng m M x) →
    ∀ (s : ℝ) (j : ℕ), Mul2 m s → |s| ≤ j * (2 : ℝ) ^ M → j + l.length ≤ 2 ^ 53 →
    (l.map fin).foldl (@PyNum.add XReal ieee) (fin s) =
        fin (l.foldl (@PyNum.add ℝ (rounded (leftToRight (roundNearest 53)))) s) ∧
      Rng m (M + 53) (l.foldl (@PyNum.add ℝ (rounded (leftToRight (roundNearest 53)))) s)
  | [], _, s, j, h1, h2, h3 => by
    refine ⟨rfl, h1, h2.trans ?_⟩
    rw [add_comm M, zpow_add₀ (by norm_num)]
    have : (j : ℝ) ≤ (2 : ℝ) ^ (53 : ℤ) := by
      have : j ≤ 2 ^ 53 := by simpa using h3
      exact_mod_cast this
    exact mul_le_mul_of_nonneg_right this (by positivity)
  | x :: l, hl, s, j, h1, h2, h3 => by
    have hx := hl x (by simp)
    have hj : j + 1 ≤ 2 ^ 53 := by simp only [List.length_cons] at h3; omega
    have hb : |s + x| ≤ ((j + 1 : ℕ) : ℝ) * (2 : ℝ) ^ M := by
      refine (abs_add_le s x).trans ?_
      push_cast
      linarith [hx.2]
    have hb2 : |s + x| ≤ (2 : ℝ) ^ (1023 : ℤ) := by
      refine hb.trans ?_
      calc ((j + 1 : ℕ) : ℝ) * (2 : ℝ) ^ M ≤ (2 : ℝ) ^ (53 : ℤ) * (2 : ℝ) ^ M := by
            gcongr; exact_mod_cast hj
        _ = (2 : ℝ) ^ (53 + M) := by rw [zpow_add₀ (by norm_num)]
        _ ≤ _ := zpow_le_zpow_right₀ (by norm_num) (by omega)
    have e : @PyNum.add XReal ieee (fin s) (fin x) = fin (@PyNum.add ℝ (rounded (leftToRight (roundNearest 53))) s x) :=
      binary64_fin (.inl ((h1.add hx.1).mono hm)) hb2
    simp only [List.map_cons, List.foldl_cons, e]
    exact ieee_foldl hm hM l (fun y hy => hl y (by simp [hy])) _ (j + 1) (rn_mul2 (h1.add hx.1))
      (rn_abs_le (rn_repr hj M) hb) (by simp only [List.length_cons] at h3; omega)

theorem ieee_sumL {m M : ℤ} (hm : m ≤ 1074) (hM : M + 53 ≤ 1023) {l : List ℝ} (hl : ∀ x ∈ l, Rng m M x)
    (hn : l.length ≤ 2 ^ 53) :
    @sumL XReal ieee (l.map fin) = fin (@sumL ℝ (rounded (leftToRight (roundNearest 53))) l) ∧
      Rng m (M + 53) (@sumL ℝ (rounded (leftToRight (roundNearest 53))) l) := by
  have h0 : @sumL XReal ieee (l.map fin) = (l.map fin).foldl (@PyNum.add XReal ieee) (fin 0) := by
    show (l.map fin).foldl (@PyNum.add XReal ieee) (fin ((0 : ℤ) : ℝ)) = _
    norm_num
  rw [h0]
  exact ieee_foldl hm hM l hl 0 0 (Mul2.zero m) (by simp) (by omega)

/-- All coordinates are in the range. -/
def RV {n : ℕ} (m M : ℤ) (x : E n) : Prop := ∀ i, Rng m M (x i)

variable {n : ℕ}

theorem RV.mono {m m' M M' : ℤ} {x : E n} (h : RV m M x) (hm : m ≤ m') (hM : M ≤ M') : RV m' M' x :=
  fun i => (h i).mono hm hM

@[simp] theorem length_xarr (x : E n) : (xarr x).length = n := by simp [xarr]

theorem ieee_dot {m M m' M' : ℤ} {x y : E n} (hn : n ≤ 2 ^ 53) (hx : RV m M x) (hy : RV m' M' y) (hm : m + m' ≤ 1074)
    (hM : M + M' + 53 ≤ 1023) :
    @dotv XReal ieee (xarr x) (xarr y) = fin (@dotv ℝ (rounded (leftToRight (roundNearest 53))) (arr x) (arr y)) ∧
      @dot XReal ieee (xarr x) (xarr y) = .ok (fin (@dotv ℝ (rounded (leftToRight (roundNearest 53))) (arr x) (arr y))) ∧
      Rng (m + m') (M + M' + 53) (@dotv ℝ (rounded (leftToRight (roundNearest 53))) (arr x) (arr y)) := by
  have h1 : List.zipWith (@PyNum.mul XReal ieee) (xarr x) (xarr y) =
      (List.zipWith (@PyNum.mul ℝ (rounded (leftToRight (roundNearest 53)))) (arr x) (arr y)).map fin := by
    apply List.ext_getElem
    · simp
    · intro i h1 h2
      simp only [List.getElem_zipWith, xarr, List.getElem_map, arr, List.getElem_ofFn]
      exact (ieee_mul (hx _) (hy _) hm (by omega)).1
  have h2 := ieee_sumL (m := m + m') (M := M + M') hm hM
    (l := List.zipWith (@PyNum.mul ℝ (rounded (leftToRight (roundNearest 53)))) (arr x) (arr y)) (by
      intro z hz
      rw [zipWith_arr] at hz
      obtain ⟨i, rfl⟩ := List.mem_ofFn.mp hz
      exact (ieee_mul (hx i) (hy i) hm (by omega)).2) (by simpa using hn)
  have h3 : @dotv XReal ieee (xarr x) (xarr y) = fin (@dotv ℝ (rounded (leftToRight (roundNearest 53))) (arr x) (arr y)) := by
    show @sumL XReal ieee (List.zipWith (@PyNum.mul XReal ieee) (xarr x) (xarr y)) = _
    rw [h1]; exact h2.1
  refine ⟨h3, ?_, h2.2⟩
  unfold dot
  rw [if_pos (by simp), h3]

theorem ieee_toFloats (l : List XReal) : @toFloats XReal ieee l = l := List.map_id l

theorem ieee_norm {m M : ℤ} {x : E n} (hn : n ≤ 2 ^ 53) (hx : RV m M x) (hm : 2 * m ≤ 1022) (hM : 2 * M + 54 ≤ 1023) :
    @normv XReal ieee (xarr x) = fin (@normv ℝ (rounded (leftToRight (roundNearest 53))) (arr x)) ∧
      Rng (m + 52) (M + 27) (@normv ℝ (rounded (leftToRight (roundNearest 53))) (arr x)) := by
  obtain ⟨h1, -, h2⟩ := ieee_dot hn hx hx (by omega) (by omega)
  have h3 : 0 ≤ @dotv ℝ (rounded (leftToRight (roundNearest 53))) (arr x) (arr x) :=
    ((roundNearest_std (p := 53) (by norm_num)).dotv_self_rp le_rfl (CRP.refl _ x)).nonneg (by positivity)
  have h4 := ieee_sqrt (m := m) (M := M + 27) (h2.mono (by omega) (by omega)) h3 (by omega) (by omega)
  unfold normv
  rw [ieee_toFloats, toFloats_rd, h1]
  exact h4

theorem ieee_wrapped (m : String) (x : E n) : @wrapped XReal ieee m (xarr x) = .ok (xarr x) := by
  have h2 : (xarr x).all (@PyNum.isFinite XReal ieee) = true := by simp [xarr, ieee_isFinite]
  simp only [wrapped, h2, if_true]

theorem ieee_new1D [NeZero n] (x : E n) : @new1D XReal ieee (xarr x) = .ok (xarr x) := by
  have h : (xarr x).length ≠ 0 := by simp [NeZero.ne n]
  have h2 : (xarr x).all (@PyNum.isFinite XReal ieee) = true := by simp [xarr, ieee_isFinite]
  simp only [new1D, h, if_false, h2]
  rfl

theorem ieee_zip {f : XReal → XReal → XReal} {g : ℝ → ℝ → ℝ} {x y z : E n} (hz : ∀ i, z i = g (x i) (y i))
    (h : ∀ i, f (fin (x i)) (fin (y i)) = fin (g (x i) (y i))) : broadcast2 f (xarr x) (xarr y) = .ok (xarr z) := by
  unfold broadcast2
  rw [if_pos (by simp)]
  congr 1
  apply List.ext_getElem
  · simp
  · intro i h1 h2
    simp only [List.getElem_zipWith, xarr, List.getElem_map, arr, List.getElem_ofFn, hz]
    exact h _

theorem ieee_vsub {m M : ℤ} {x y : E n} (hx : RV m M x) (hy : RV m M y) (hm : m ≤ 1074) (hM : M ≤ 1022) :
    ∃ z : E n, @vsub ℝ (rounded (leftToRight (roundNearest 53))) (arr x) (arr y) = .ok (arr z) ∧
      @vsub XReal ieee (xarr x) (xarr y) = .ok (xarr z) ∧ RV m (M + 1) z := by
  obtain ⟨z, hz, hi⟩ := vsub_rd (fl := leftToRight (roundNearest 53)) x y
  refine ⟨z, hz, ieee_zip hi fun i => (ieee_sub (hx i) (hy i) hm hM).1, fun i => ?_⟩
  rw [hi]; exact (ieee_sub (hx i) (hy i) hm hM).2

theorem ieee_vadd {m M : ℤ} {x y : E n} (hx : RV m M x) (hy : RV m M y) (hm : m ≤ 1074) (hM : M ≤ 1022) :
    ∃ z : E n, @vadd ℝ (rounded (leftToRight (roundNearest 53))) (arr x) (arr y) = .ok (arr z) ∧
      @vadd XReal ieee (xarr x) (xarr y) = .ok (xarr z) ∧ RV m (M + 1) z := by
  obtain ⟨z, hz, hi⟩ := vadd_rd (fl := leftToRight (roundNearest 53)) x y
  refine ⟨z, hz, ieee_zip hi fun i => (ieee_add (hx i) (hy i) hm hM).1, fun i => ?_⟩
  rw [hi]; exact (ieee_add (hx i) (hy i) hm hM).2

theorem ieee_fromPoints [NeZero n] {m M : ℤ} {x y : E n} (hx : RV m M x) (hy : RV m M y) (hm : m ≤ 1074) (hM : M ≤ 1022) :
    ∃ z : E n, @Vec.fromPoints ℝ (rounded (leftToRight (roundNearest 53))) (arr x) (arr y) = .ok (arr z) ∧
      @Vec.fromPoints XReal ieee (xarr x) (xarr y) = .ok (xarr z) ∧ RV m (M + 1) z := by
  obtain ⟨z, h1, h2, h3⟩ := ieee_vsub hy hx hm hM
  refine ⟨z, ?_, ?_, h3⟩
  · simp only [Vec.fromPoints, h1, ok_bind, new1D_rd]
  · simp only [Vec.fromPoints, h2, ok_bind, ieee_new1D]

theorem ieee_map {f : XReal → XReal} {g : ℝ → ℝ} {x z : E n} (hz : ∀ i, z i = g (x i))
    (h : ∀ i, f (fin (x i)) = fin (g (x i))) : (xarr x).map f = xarr z := by
  apply List.ext_getElem
  · simp
  · intro i h1 h2
    simp only [xarr, List.getElem_map, arr, List.getElem_ofFn, hz]
    exact h _

theorem ieee_smul {m M m' M' : ℤ} {t : ℝ} {x : E n} (ht : Rng m M t) (hx : RV m' M' x) (hm : m + m' ≤ 1074) (hM : M + M' ≤ 1023) :
    ∃ z : E n, @smul ℝ (rounded (leftToRight (roundNearest 53))) t (arr x) = arr z ∧ @smul XReal ieee (fin t) (xarr x) = xarr z ∧
      RV (m + m') (M + M') z := by
  obtain ⟨z, hz, hi⟩ := smul_rd (fl := leftToRight (roundNearest 53)) t x
  refine ⟨z, hz, ieee_map hi fun i => (ieee_mul ht (hx i) hm hM).1, fun i => ?_⟩
  rw [hi]; exact (ieee_mul ht (hx i) hm hM).2

theorem ieee_sdiv {m M m' M' : ℤ} {t : ℝ} {x : E n} (ht : Rng m M t) (ht0 : t ≠ 0) (hx : RV m' M' x) (hm : m' + M ≤ 1022)
    (hM : M' + m ≤ 1023) :
    ∃ z : E n, @sdiv ℝ (rounded (leftToRight (roundNearest 53))) (arr x) t = arr z ∧ @sdiv XReal ieee (xarr x) (fin t) = xarr z ∧
      RV (m' + M + 52) (M' + m) z := by
  obtain ⟨z, hz, hi⟩ := sdiv_rd (fl := leftToRight (roundNearest 53)) t x
  refine ⟨z, hz, ieee_map (g := fun a => roundNearest 53 (a / t)) hi fun i => (ieee_div (hx i) ht ht0 hm hM).1, fun i => ?_⟩
  rw [hi]; exact (ieee_div (hx i) ht ht0 hm hM).2

/-- `math.isclose` on values in range. -/
theorem ieee_isclose {m M m' M' : ℤ} {r s a b : ℝ} (hr : Rng m' M' r) (ha : Rng m M a) (hb : Rng m M b) (hm : m ≤ 1074)
    (hM : M ≤ 1022) (hm' : m' + m ≤ 1074) (hM' : M' + M ≤ 1023) :
    @isclose XReal ieee ⟨fin r, fin s⟩ (fin a) (fin b) = @isclose ℝ (rounded (leftToRight (roundNearest 53))) ⟨r, s⟩ a b := by
  simp only [isclose, ieee_toFloat, toFloat_rd, ieee_zero, ieee_lt, ieee_eq, ieee_isFinite, isFinite_rd,
    (ieee_sub hb ha hm hM).1, (ieee_mul hr ha hm' hM').1, (ieee_mul hr hb hm' hM').1, ieee_abs, ieee_le]

/-- The default tolerances. -/
theorem ieee_tol : ∃ r : ℝ, @Tol.default ℝ (rounded (leftToRight (roundNearest 53))) = ⟨r, 0⟩ ∧ @Tol.default XReal ieee = ⟨fin r, fin 0⟩ ∧
    Rng 82 0 r := by
  have h1 : Rng 0 30 ((1000000000 : ℕ) : ℝ) := Rng.int (by norm_num)
  have h2 := ieee_div Rng.one h1 (by norm_num) (by norm_num) (by norm_num)
  have e : (((1000000000 : ℕ) : ℝ)) = 1000000000 := by norm_num
  rw [e] at h2
  refine ⟨_, ?_, ?_, h2.2⟩
  · simp only [Tol.default, ofInt_rd, zero_rd]; norm_num
  · simp only [Tol.default, ieee_ofInt, ieee_zero, zero_rd, ← h2.1]; norm_num

/-- A moderate number is a multiple of `2⁻¹⁰²`. -/
theorem Moderate.rng {x : ℝ} (h : Moderate x) : Rng 102 50 x := by
  obtain ⟨h1, h2, h3⟩ := h
  refine ⟨?_, h3⟩
  have e : roundNearest 53 x = x := by
    have : binary64 (fin x) = fin (roundNearest 53 x) := by
      refine binary64_fin ?_ (h3.trans (zpow_le_zpow_right₀ (by norm_num) (by norm_num)))
      rcases h2 with rfl | h2
      · exact .inl (Mul2.zero _)
      · exact .inr ((zpow_le_zpow_right₀ (by norm_num) (by norm_num)).trans h2)
    rw [IsFloat, this] at h1
    exact XReal.fin.inj h1
  have := rn_mul2_of_le h2
  rw [e] at this
  exact this

end SkSpatial
