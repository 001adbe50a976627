import Verif.Lemmas.Ieee
/-! # Overflow and underflow of binary64 operations -/

namespace SkSpatial
open XReal

theorem rintReal_zero : rintReal 0 = 0 := by simpa using rintReal_int 0

theorem roundFloat_zero : roundFloat 0 = 0 := by simp [roundFloat, rintReal_zero]

theorem roundFloat_nonneg {y : ℝ} (h : 0 ≤ y) : 0 ≤ roundFloat y := by
  unfold roundFloat
  have : rintReal 0 ≤ rintReal (y * (2 : ℝ) ^ min (52 - Int.log 2 |y|) 1074) := rintReal_mono (by positivity)
  rw [rintReal_zero] at this
  exact div_nonneg this (by positivity)

theorem roundFloat_neg (y : ℝ) : roundFloat (-y) = -roundFloat y := by
  unfold roundFloat
  rw [abs_neg, neg_mul, rintReal_neg, neg_div]

theorem roundFloat_le {y c : ℝ} (hc : roundNearest 53 c = c) (hc' : Mul2 1074 c) (h : |y| ≤ c) : |roundFloat y| ≤ c := by
  rcases le_total (52 - Int.log 2 |y|) 1074 with hk | hk
  · have : roundFloat y = roundNearest 53 y := by rw [rn_def, roundFloat, min_eq_left hk]
    rw [this]
    exact rn_abs_le hc h
  · have key : ∀ y : ℝ, 1074 ≤ 52 - Int.log 2 |y| → |y| ≤ c → roundFloat y ≤ c := by
      intro y hk h
      obtain ⟨k, hk'⟩ := hc'
      unfold roundFloat
      rw [min_eq_right hk, div_le_iff₀ (by positivity), hk']
      have h1 : y * (2 : ℝ) ^ (1074 : ℤ) ≤ k := by
        rw [← hk']
        exact mul_le_mul_of_nonneg_right ((le_abs_self y).trans h) (by positivity)
      have h2 := rintReal_mono h1
      rwa [rintReal_int] at h2
    rw [abs_le]
    refine ⟨?_, key y hk h⟩
    have := key (-y) (by rwa [abs_neg]) (by rwa [abs_neg])
    rw [roundFloat_neg] at this
    linarith

/-- A result of magnitude at most `2¹⁰²³` does not overflow. -/
theorem binary64_of_le {y : ℝ} {M : ℤ} {j : ℕ} (hj : j ≤ 2 ^ 53) (h0 : -1074 ≤ M) (h1 : M + 53 ≤ 1023) (h : |y| ≤ j * (2 : ℝ) ^ M) :
    ∃ z, binary64 (fin y) = fin z ∧ |z| ≤ j * (2 : ℝ) ^ M := by
  have hz := roundFloat_le (rn_repr hj M) (Mul2.mono (m := -M) ⟨j, by rw [mul_assoc, ← zpow_add₀ (by norm_num)]; simp⟩ (by omega)) h
  refine ⟨_, ?_, hz⟩
  have h2 : (j : ℝ) * (2 : ℝ) ^ M < 2 ^ 1024 := by
    have hj' : (j : ℝ) ≤ (2 : ℝ) ^ (53 : ℤ) := by exact_mod_cast hj
    calc (j : ℝ) * (2 : ℝ) ^ M ≤ (2 : ℝ) ^ (53 : ℤ) * (2 : ℝ) ^ M := by gcongr
      _ = (2 : ℝ) ^ (53 + M) := by rw [zpow_add₀ (by norm_num)]
      _ < (2 : ℝ) ^ (1024 : ℤ) := zpow_lt_zpow_right₀ (by norm_num) (by omega)
      _ = 2 ^ 1024 := by rw [← zpow_natCast, Nat.cast_ofNat]
  obtain ⟨h3, h4⟩ := abs_le.mp hz
  simp only [binary64]
  rw [if_neg fun h => absurd (h.trans h4) (not_le.mpr h2), if_neg fun h => absurd (neg_le_neg_iff.mp (h3.trans h)) (not_le.mpr h2)]

/-- A result of at least `2¹⁰²⁴` overflows to `+inf`. -/
theorem binary64_overflow {y : ℝ} (h : (2 : ℝ) ^ (1024 : ℤ) ≤ y) : binary64 (fin y) = posInf := by
  have hy : |y| = y := abs_of_nonneg (le_trans (by positivity) h)
  have h1 : roundFloat y = roundNearest 53 y :=
    roundFloat_eq (.inr (by rw [hy]; exact (zpow_le_zpow_right₀ (by norm_num) (by norm_num)).trans h))
  have h2 := roundNearest_mono (p := 53) (by norm_num) h
  rw [rn_pow] at h2
  simp only [binary64, h1]
  rw [if_pos (by exact_mod_cast h2)]

/-- A result of magnitude at most `2⁻¹⁰⁷⁶` underflows to zero. -/
theorem binary64_underflow {y : ℝ} (h : |y| ≤ (2 : ℝ) ^ (-1076 : ℤ)) : binary64 (fin y) = fin 0 := by
  have hr : roundFloat y = 0 := by
    by_cases hy : y = 0
    · rw [hy, roundFloat_zero]
    have hl : ((2 : ℕ) : ℝ) ^ Int.log 2 |y| ≤ |y| := Int.zpow_log_le_self (by norm_num) (abs_pos.mpr hy)
    have : Int.log 2 |y| ≤ -1076 := (zpow_le_zpow_iff_right₀ (by norm_num : (1 : ℝ) < 2)).mp ((by exact_mod_cast hl : (2 : ℝ) ^ Int.log 2 |y| ≤ |y|).trans h)
    unfold roundFloat
    rw [min_eq_right (by omega)]
    have h1 : |y * (2 : ℝ) ^ (1074 : ℤ)| ≤ 1 / 4 := by
      rw [abs_mul, abs_of_pos (show (0 : ℝ) < (2 : ℝ) ^ (1074 : ℤ) by positivity)]
      calc |y| * (2 : ℝ) ^ (1074 : ℤ) ≤ (2 : ℝ) ^ (-1076 : ℤ) * (2 : ℝ) ^ (1074 : ℤ) := by gcongr
        _ = (2 : ℝ) ^ (-2 : ℤ) := by rw [← zpow_add₀ (by norm_num)]; norm_num
        _ = 1 / 4 := by norm_num
    obtain ⟨t, ht⟩ : ∃ t, t = y * (2 : ℝ) ^ (1074 : ℤ) := ⟨_, rfl⟩
    rw [← ht] at h1 ⊢
    obtain ⟨h2, h3⟩ := abs_le.mp h1
    have : rintReal t = 0 := by
      have key : ∀ t : ℝ, 0 ≤ t → t ≤ 1 / 4 → rintReal t = 0 := by
        intro t h0 h1
        have hf : ⌊t⌋ = 0 := Int.floor_eq_iff.mpr ⟨by simpa using h0, by norm_num; linarith⟩
        have : Int.fract t = t := by rw [Int.fract, hf]; simp
        rw [rintReal, this, if_pos (by linarith), hf]; simp
      rcases le_total 0 t with h0 | h0
      · exact key t h0 h3
      · have := key (-t) (by linarith) (by linarith)
        rw [rintReal_neg] at this
        linarith
    rw [this, zero_div]
  simp only [binary64, hr]
  rw [if_neg (by norm_num), if_neg (by norm_num)]

/-- `+inf`, or finite and not negative. -/
def NN : XReal → Prop
  | fin a => 0 ≤ a
  | posInf => True
  | _ => False

theorem NN.binary64 {y : ℝ} (h : 0 ≤ y) : NN (binary64 (fin y)) := by
  have := roundFloat_nonneg h
  simp only [SkSpatial.binary64]
  split_ifs with h1 h2
  · trivial
  · exact absurd (this.trans h2) (not_le.mpr (neg_neg_of_pos (by positivity)))
  · exact this

theorem NN.add {a b : XReal} (ha : NN a) (hb : NN b) : NN (@PyNum.add XReal ieee a b) := by
  cases a <;> cases b <;> try (first | exact ha.elim | exact hb.elim)
  · exact NN.binary64 (add_nonneg ha hb)
  all_goals trivial

theorem add_posInf {a : XReal} (ha : NN a) : @PyNum.add XReal ieee a posInf = posInf ∧ @PyNum.add XReal ieee posInf a = posInf := by
  cases a <;> first | exact ha.elim | exact ⟨rfl, rfl⟩

theorem foldl_posInf : ∀ {l : List XReal} {s : XReal}, NN s → (∀ a ∈ l, NN a) → (s = posInf ∨ posInf ∈ l) →
    l.foldl (@PyNum.add XReal ieee) s = posInf
  | [], s, _, _, h => by simpa using h
  | a :: l, s, hs, hl, h => by
    have ha := hl a (by simp)
    rw [List.foldl_cons]
    refine foldl_posInf (hs.add ha) (fun b hb => hl b (by simp [hb])) ?_
    rcases h with rfl | h
    · exact .inl (add_posInf ha).2
    · rcases List.mem_cons.mp h with rfl | h
      · exact .inl (add_posInf hs).1
      · exact .inr h

theorem foldl_nn : ∀ {l : List XReal} {s : XReal}, NN s → (∀ a ∈ l, NN a) → NN (l.foldl (@PyNum.add XReal ieee) s)
  | [], _, hs, _ => hs
  | a :: l, s, hs, hl => by
    rw [List.foldl_cons]
    exact foldl_nn (hs.add (hl a (by simp))) fun b hb => hl b (by simp [hb])

variable {n : ℕ}

theorem zipWith_xarr (f : XReal → XReal → XReal) (x y : E n) :
    List.zipWith f (xarr x) (xarr y) = List.ofFn fun i => f (fin (x i)) (fin (y i)) := by
  apply List.ext_getElem
  · simp
  · intro i h1 h2
    simp [xarr, arr]

theorem dotv_xarr (x y : E n) : @dotv XReal ieee (xarr x) (xarr y) =
    (List.ofFn fun i => binary64 (fin (x i * y i))).foldl (@PyNum.add XReal ieee) (fin 0) := by
  show (List.zipWith (@PyNum.mul XReal ieee) (xarr x) (xarr y)).foldl (@PyNum.add XReal ieee) (fin ((0 : ℤ) : ℝ)) = _
  rw [zipWith_xarr, Int.cast_zero]
  rfl

theorem dot_xarr (x y : E n) : @dot XReal ieee (xarr x) (xarr y) = .ok (@dotv XReal ieee (xarr x) (xarr y)) := by
  unfold dot
  rw [if_pos (by simp)]

/-- The square of a vector with a huge coordinate overflows. -/
theorem dotv_self_overflow {x : E n} {i : Fin n} (hi : (2 : ℝ) ^ (512 : ℤ) ≤ |x i|) :
    @dotv XReal ieee (xarr x) (xarr x) = posInf := by
  rw [dotv_xarr]
  refine foldl_posInf (show (0 : ℝ) ≤ 0 from le_rfl) ?_ (.inr ?_)
  · intro a ha
    obtain ⟨j, rfl⟩ := List.mem_ofFn.mp ha
    exact NN.binary64 (mul_self_nonneg _)
  · refine List.mem_ofFn.mpr ⟨i, binary64_overflow ?_⟩
    rw [← abs_mul_abs_self]
    calc (2 : ℝ) ^ (1024 : ℤ) = (2 : ℝ) ^ (512 : ℤ) * (2 : ℝ) ^ (512 : ℤ) := by rw [← zpow_add₀ (by norm_num)]; norm_num
      _ ≤ _ := by gcongr

theorem norm_overflow {x : E n} {i : Fin n} (hi : (2 : ℝ) ^ (512 : ℤ) ≤ |x i|) : @normv XReal ieee (xarr x) = posInf := by
  unfold normv
  rw [ieee_toFloats, dotv_self_overflow hi]
  rfl

theorem norm_nn (x : E n) : NN (@normv XReal ieee (xarr x)) := by
  have h : NN (@dotv XReal ieee (xarr x) (xarr x)) := by
    rw [dotv_xarr]
    refine foldl_nn (show (0 : ℝ) ≤ 0 from le_rfl) ?_
    intro a ha
    obtain ⟨j, rfl⟩ := List.mem_ofFn.mp ha
    exact NN.binary64 (mul_self_nonneg _)
  unfold normv
  rw [ieee_toFloats]
  cases hd : @dotv XReal ieee (xarr x) (xarr x) <;> rw [hd] at h
  · show NN (binary64 (XReal.sqrt _))
    rw [XReal.sqrt, if_neg (not_lt.mpr h)]
    exact NN.binary64 (Real.sqrt_nonneg _)
  · trivial
  · exact h.elim
  · exact h.elim

/-- A sum of bounded terms stays finite. -/
theorem foldl_bounded {M : ℤ} (h0 : -1074 ≤ M) (hM : M + 53 ≤ 1023) : ∀ (l : List XReal), (∀ a ∈ l, ∃ y, a = fin y ∧ |y| ≤ (2 : ℝ) ^ M) →
    ∀ (s : ℝ) (j : ℕ), |s| ≤ j * (2 : ℝ) ^ M → j + l.length ≤ 2 ^ 53 → ∃ z, l.foldl (@PyNum.add XReal ieee) (fin s) = fin z
  | [], _, s, _, _, _ => ⟨s, rfl⟩
  | a :: l, hl, s, j, hs, hj => by
    obtain ⟨y, rfl, hy⟩ := hl a (by simp)
    have hj1 : j + 1 ≤ 2 ^ 53 := by simp only [List.length_cons] at hj; omega
    have hb : |s + y| ≤ ((j + 1 : ℕ) : ℝ) * (2 : ℝ) ^ M := by
      refine (abs_add_le s y).trans ?_
      push_cast
      linarith
    obtain ⟨z, hz, hzb⟩ := binary64_of_le hj1 h0 hM hb
    rw [List.foldl_cons, show @PyNum.add XReal ieee (fin s) (fin y) = fin z from hz]
    exact foldl_bounded h0 hM l (fun b hb => hl b (by simp [hb])) z (j + 1) hzb (by simp only [List.length_cons] at hj; omega)

theorem dotv_bounded {M : ℤ} (hn : n ≤ 2 ^ 53) (h0 : -1074 ≤ M) (hM : M + 53 ≤ 1023) {x y : E n} (h : ∀ i, |x i * y i| ≤ (2 : ℝ) ^ M) :
    ∃ z, @dotv XReal ieee (xarr x) (xarr y) = fin z := by
  rw [dotv_xarr]
  refine foldl_bounded h0 hM _ ?_ 0 0 (by simp) (by simpa using hn)
  intro a ha
  obtain ⟨i, rfl⟩ := List.mem_ofFn.mp ha
  obtain ⟨z, hz, hzb⟩ := binary64_of_le (j := 1) (by norm_num) h0 hM (y := x i * y i) (by simpa using h i)
  exact ⟨z, hz, by simpa using hzb⟩

end SkSpatial
