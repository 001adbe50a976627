import Verif.Spec.Geometry
import Verif.Props.Points
import Verif.Lemmas.Cross
/-! # Which three points are accepted as collinear with NumPy's default tolerance -/

namespace SkSpatial
open Finset

variable {n : ℕ}

namespace Dec
variable {A : List (E n)} {W : ℕ → E A.length} {σ : ℕ → ℝ} {V : ℕ → E n}

/-- The squared Frobenius norm is the sum of the squared singular values. -/
theorem sum_norm_sq (h : Dec A W σ V) :
    ∑ i : Fin A.length, ‖A.get i‖ ^ 2 = ∑ l ∈ range (min A.length n), σ l ^ 2 := by
  have e : ∀ i : Fin A.length, ‖A.get i‖ ^ 2 =
      ∑ l ∈ range (min A.length n), σ l * (W l i * (inner ℝ (A.get i) (V l) : ℝ)) := by
    intro i
    rw [← real_inner_self_eq_norm_sq, h.inner_get i]
    refine sum_congr rfl fun l _ => ?_
    rw [real_inner_comm]; ring
  rw [sum_congr rfl fun i _ => e i, sum_comm]
  refine sum_congr rfl fun l hl => ?_
  rw [← mul_sum]
  have : ∑ i : Fin A.length, W l i * (inner ℝ (A.get i) (V l) : ℝ) = σ l := by
    have h1 : (inner ℝ (σ l • V l) (V l) : ℝ) = σ l := by
      rw [real_inner_smul_left, h.inner_V (mem_range.mp hl) (mem_range.mp hl)]; simp
    rw [h.V_eq (mem_range.mp hl), sum_inner] at h1
    rw [← h1]
    refine sum_congr rfl fun i _ => ?_
    rw [real_inner_smul_left]
  rw [this]; ring

/-- The squared Frobenius norm of the Gram matrix. -/
theorem sum_gram_sq (h : Dec A W σ V) :
    ∑ j : Fin A.length, ∑ i : Fin A.length, (inner ℝ (A.get i) (A.get j) : ℝ) ^ 2 =
      ∑ l ∈ range (min A.length n), σ l ^ 4 := by
  rw [sum_congr rfl fun j _ => h.sum_inner_sq (A.get j), sum_comm]
  refine sum_congr rfl fun l hl => ?_
  rw [← mul_sum]
  have : ∑ i : Fin A.length, (inner ℝ (V l) (A.get i) : ℝ) ^ 2 = σ l ^ 2 := by
    rw [sum_congr rfl fun i _ => by rw [real_inner_comm], h.sum_inner_sq (V l), sum_eq_single l]
    · rw [h.inner_V (mem_range.mp hl) (mem_range.mp hl)]; simp
    · intro b hb hbl
      rw [h.inner_V (mem_range.mp hb) (mem_range.mp hl)]; simp [hbl]
    · intro hl'; exact absurd hl hl'
  rw [this]; ring

end Dec

theorem affineRank_centered [NumpyExt ℝ] [LawfulNumpy] [NeZero n] {P : List (E n)} (hP : P ≠ [])
    (tol : Option ℝ) : ∃ (Q : List (E n)) (W : ℕ → E (Q.map fun q => q - centroidE Q).length) (σ : ℕ → ℝ)
      (V : ℕ → E n), Dec (Q.map fun q => q - centroidE Q) W σ V ∧ Q.Nodup ∧ (∀ x, x ∈ Q ↔ x ∈ P) ∧
      Submodule.span ℝ {x | x ∈ Q.map fun q => q - centroidE Q} = vectorSpan ℝ {x | x ∈ P} ∧
      Pts.affineRank tol (rows P) = .ok (Dec.cnt (min Q.length n) σ
        (tol.getD (σ 0 * (max Q.length n : ℕ) * (2 : ℝ)⁻¹ ^ 52))) := by
  obtain ⟨Q, h1, h2, h3, -⟩ := unique_rows hP
  have hQ : Q ≠ [] := by
    rintro rfl
    obtain ⟨x, hx⟩ := List.exists_mem_of_ne_nil P hP
    exact absurd ((h3 x).mpr hx) (by simp)
  have hA : Q.map (fun q => q - centroidE Q) ≠ [] := by simpa using hQ
  obtain ⟨W, σ, V, hd, hv⟩ := matrixRank_dec hA (NeZero.ne n) tol
  refine ⟨Q, W, σ, V, hd, h2, h3, ?_, ?_⟩
  · rw [vectorSpan_centered hQ]
    congr 1; ext x; exact h3 x
  · simp only [Pts.affineRank, h1, ok_bind, meanCenter_rows hQ, pure_ok, hv, List.length_map]

theorem heron16_eq (a b c : E n) : heron16 a b c =
    4 * (‖b - a‖ ^ 2 * ‖c - a‖ ^ 2 - (inner ℝ (b - a) (c - a) : ℝ) ^ 2) := by
  have hbc : dist b c ^ 2 = ‖b - a‖ ^ 2 - 2 * inner ℝ (b - a) (c - a) + ‖c - a‖ ^ 2 := by
    rw [dist_eq_norm, ← norm_sub_sq_real]; congr 2; abel
  rw [heron16, hbc, dist_comm a b, dist_eq_norm, dist_eq_norm]
  ring

theorem gram_three (a b c : E n) :
    let g := (3 : ℝ)⁻¹ • (a + b + c)
    let x := a - g
    let y := b - g
    let z := c - g
    ‖x‖ ^ 2 + ‖y‖ ^ 2 + ‖z‖ ^ 2 = (dist a b ^ 2 + dist b c ^ 2 + dist c a ^ 2) / 3 ∧
    (‖x‖ ^ 2 + ‖y‖ ^ 2 + ‖z‖ ^ 2) ^ 2 - ((‖x‖ ^ 2) ^ 2 + (‖y‖ ^ 2) ^ 2 + (‖z‖ ^ 2) ^ 2 +
      2 * (inner ℝ x y : ℝ) ^ 2 + 2 * (inner ℝ y z : ℝ) ^ 2 + 2 * (inner ℝ z x : ℝ) ^ 2) =
      heron16 a b c / 6 := by
  intro g x y z
  obtain ⟨u, hu⟩ : ∃ u, u = b - a := ⟨_, rfl⟩
  obtain ⟨v, hv⟩ : ∃ v, v = c - a := ⟨_, rfl⟩
  have hx : x = (3 : ℝ)⁻¹ • (-u - v) := by
    simp only [x, g, hu, hv]; module
  have hy : y = (3 : ℝ)⁻¹ • ((2 : ℝ) • u - v) := by
    simp only [y, g, hu, hv]; module
  have hz : z = (3 : ℝ)⁻¹ • ((2 : ℝ) • v - u) := by
    simp only [z, g, hu, hv]; module
  have hbc : dist b c ^ 2 = ‖u‖ ^ 2 - 2 * inner ℝ u v + ‖v‖ ^ 2 := by
    rw [dist_eq_norm, ← norm_sub_sq_real, hu, hv]; congr 2; abel
  rw [heron16_eq, hbc, dist_comm a b, dist_eq_norm, dist_eq_norm, ← hu, ← hv, hx, hy, hz]
  simp only [← real_inner_self_eq_norm_sq, real_inner_smul_left, real_inner_smul_right, inner_sub_left,
    inner_sub_right, inner_neg_left, inner_neg_right, real_inner_comm u v]
  constructor <;> ring

theorem heron16_collinear {a b c : E n} (h : Collinear ℝ {a, b, c}) : heron16 a b c = 0 := by
  obtain ⟨p, v, hv⟩ := (collinear_iff_exists_forall_eq_smul_vadd (k := ℝ) _).mp h
  obtain ⟨r, hr⟩ := hv a (by simp)
  obtain ⟨s, hs⟩ := hv b (by simp)
  obtain ⟨t, ht⟩ := hv c (by simp)
  have h1 : b - a = (s - r) • v := by rw [hr, hs]; simp [sub_smul]
  have h2 : c - a = (t - r) • v := by rw [hr, ht]; simp [sub_smul]
  rw [heron16_eq, h1, h2]
  simp only [← real_inner_self_eq_norm_sq, real_inner_smul_left, real_inner_smul_right]
  ring

/-- The scalar fact behind `areCollinear_three`. -/
theorem ratio_iff {e s0 s1 : ℝ} (he : 0 < e) (he1 : e < 1) (h1 : 0 ≤ s1) (h01 : s1 ≤ s0) :
    s0 * e < s1 ↔ e ^ 2 * (s0 ^ 2 + s1 ^ 2) ^ 2 < (s0 ^ 2 * s1 ^ 2) * (1 + e ^ 2) ^ 2 := by
  have key : (s0 ^ 2 * s1 ^ 2) * (1 + e ^ 2) ^ 2 - e ^ 2 * (s0 ^ 2 + s1 ^ 2) ^ 2 =
      (s1 ^ 2 - e ^ 2 * s0 ^ 2) * (s0 ^ 2 - e ^ 2 * s1 ^ 2) := by ring
  have h0 : 0 ≤ s0 := h1.trans h01
  have hf : s1 ^ 2 - e ^ 2 * s0 ^ 2 = (s1 - s0 * e) * (s1 + s0 * e) := by ring
  rcases h0.eq_or_lt with rfl | hp
  · have : s1 = 0 := le_antisymm h01 h1
    subst this; simp
  · have hpos : 0 < s0 ^ 2 - e ^ 2 * s1 ^ 2 := by
      have h2 : s1 ^ 2 ≤ s0 ^ 2 := pow_le_pow_left₀ h1 h01 2
      have h3 : e ^ 2 < 1 := by nlinarith
      nlinarith [pow_pos hp 2]
    have hq : 0 < s1 + s0 * e := by positivity
    rw [← sub_pos (b := e ^ 2 * _), key, hf, mul_pos_iff_of_pos_right hpos, mul_pos_iff_of_pos_right hq, sub_pos]

/-- `are_collinear` on three points with the default tolerance: they are *not* accepted as collinear iff
their triangle is not too thin. -/
theorem areCollinear_three [NumpyExt ℝ] [LawfulNumpy] [NeZero n] (hn : n < 2 ^ 50) (a b c : E n) :
    Pts.areCollinear none (rows [a, b, c]) = .ok (decide
      (¬ 4 * rankEps n ^ 2 * (dist a b ^ 2 + dist b c ^ 2 + dist c a ^ 2) ^ 2 <
        3 * heron16 a b c * (1 + rankEps n ^ 2) ^ 2)) := by
  have hset : ({x | x ∈ [a, b, c]} : Set (E n)) = {a, b, c} := by ext x; simp
  by_cases hcol : Collinear ℝ ({a, b, c} : Set (E n))
  · obtain ⟨b0, b1, b2, -, h1, -, -, hc, -⟩ := C22_predicates (P := [a, b, c]) (by simp) none (by simp)
    rw [h1, hc (by rw [hset]; exact hcol), heron16_collinear hcol]
    have : ¬ 4 * rankEps n ^ 2 * (dist a b ^ 2 + dist b c ^ 2 + dist c a ^ 2) ^ 2 <
        3 * 0 * (1 + rankEps n ^ 2) ^ 2 := by
      rw [mul_zero, zero_mul, not_lt]; positivity
    rw [decide_eq_true this]
  · have hab : a ≠ b := by rintro rfl; apply hcol; simp [collinear_pair]
    have hac : a ≠ c := by rintro rfl; apply hcol; rw [Set.insert_comm]; simp [collinear_pair]
    have hbc : b ≠ c := by rintro rfl; apply hcol; simp [collinear_pair]
    obtain ⟨Q, W, σ, V, hd, hnd, hmem, hspan, hr⟩ := affineRank_centered (P := [a, b, c]) (by simp) none
    have hperm : Q.Perm [a, b, c] := by
      rw [List.perm_ext_iff_of_nodup hnd (by simp [hab, hac, hbc])]; exact hmem
    have hlen : Q.length = 3 := by rw [hperm.length_eq]; rfl
    have hg : centroidE Q = (3 : ℝ)⁻¹ • (a + b + c) := by
      rw [centroidE, hlen, hperm.sum_eq]; simp [add_assoc]
    have hAp : (Q.map fun q => q - centroidE Q).Perm
        [a - (3 : ℝ)⁻¹ • (a + b + c), b - (3 : ℝ)⁻¹ • (a + b + c), c - (3 : ℝ)⁻¹ • (a + b + c)] := by
      rw [hg]; exact hperm.map _
    have hsum : ∀ f : E n → ℝ, ∑ i : Fin (Q.map fun q => q - centroidE Q).length,
        f ((Q.map fun q => q - centroidE Q).get i) = f (a - (3 : ℝ)⁻¹ • (a + b + c)) +
          f (b - (3 : ℝ)⁻¹ • (a + b + c)) + f (c - (3 : ℝ)⁻¹ • (a + b + c)) := by
      intro f
      have h1 := (hAp.map f).sum_eq
      rw [← List.sum_ofFn]
      have h2 : List.ofFn (fun i => f ((Q.map fun q => q - centroidE Q).get i)) =
          (Q.map fun q => q - centroidE Q).map f := by
        apply List.ext_getElem <;> simp
      rw [h2, h1]; simp [add_assoc]
    have hmin : min (Q.map fun q => q - centroidE Q).length n = min 3 n := by simp [hlen]
    obtain ⟨g1, g2⟩ := gram_three a b c
    have hT := hd.sum_norm_sq
    rw [hsum (fun x => ‖x‖ ^ 2), hmin, g1] at hT
    have hF := hd.sum_gram_sq
    rw [hsum (fun y => ∑ i : Fin (Q.map fun q => q - centroidE Q).length,
      (inner ℝ ((Q.map fun q => q - centroidE Q).get i) y : ℝ) ^ 2)] at hF
    have hG : ∀ y : E n, ∑ i : Fin (Q.map fun q => q - centroidE Q).length,
      (inner ℝ ((Q.map fun q => q - centroidE Q).get i) y : ℝ) ^ 2 = _ :=
      fun y => hsum (fun x => (inner ℝ x y : ℝ) ^ 2)
    simp only [hG, hmin] at hF
    have hzero : ∀ l, 2 ≤ l → l < min 3 n → σ l = 0 := by
      intro l hl hl'
      by_contra hne
      have hpos : 0 < σ l := lt_of_le_of_ne (hd.nonneg l) (Ne.symm hne)
      have h1 := (Dec.lt_cnt_iff (k := min 3 n) hd.anti 0 hl').mpr hpos
      have h2 := hd.cnt_zero
      rw [hmin, hspan, hset] at h2
      have h3 := coplanar_iff_finrank_le_two.mp (coplanar_triple ℝ a b c)
      omega
    rw [Pts.areCollinear, hr, ok_bind, pure_ok, hlen]
    obtain ⟨T, hTd⟩ : ∃ T, T = dist a b ^ 2 + dist b c ^ 2 + dist c a ^ 2 := ⟨_, rfl⟩
    obtain ⟨H, hHd⟩ : ∃ H, H = heron16 a b c := ⟨_, rfl⟩
    rw [g1] at g2
    simp only [real_inner_self_eq_norm_sq, real_inner_comm (a - _) (b - _), real_inner_comm (b - _) (c - _),
      real_inner_comm (c - _) (a - _)] at hF
    have hFD : (T / 3) ^ 2 - ∑ l ∈ range (min 3 n), σ l ^ 4 = H / 6 := by
      rw [← hF, hTd, hHd, ← g2]; ring
    have hT' : ∑ l ∈ range (min 3 n), σ l ^ 2 = T / 3 := by rw [← hT, hTd]
    rw [← hTd, ← hHd]
    have hgoal : (2 ≤ Dec.cnt (min 3 n) σ (σ 0 * (max 3 n : ℕ) * (2 : ℝ)⁻¹ ^ 52)) ↔
        4 * rankEps n ^ 2 * T ^ 2 < 3 * H * (1 + rankEps n ^ 2) ^ 2 := by
      have he0 : 0 < rankEps n := by
        unfold rankEps
        have : (0 : ℝ) < (max 3 n : ℕ) := by exact_mod_cast (by omega : 0 < max 3 n)
        positivity
      have he1 : rankEps n < 1 := by
        unfold rankEps
        have : ((max 3 n : ℕ) : ℝ) < 2 ^ 50 := by exact_mod_cast (by omega : max 3 n < 2 ^ 50)
        calc ((max 3 n : ℕ) : ℝ) * (2 : ℝ)⁻¹ ^ 52 < 2 ^ 50 * (2 : ℝ)⁻¹ ^ 52 := by
              apply mul_lt_mul_of_pos_right this (by positivity)
          _ ≤ 1 := by norm_num
      rcases Nat.lt_or_ge 1 n with h1n | h1n
      · have hk : 1 < min 3 n := by omega
        have hs2 : ∀ m : ℕ, m ≠ 0 → ∑ l ∈ range (min 3 n), σ l ^ m = σ 0 ^ m + σ 1 ^ m := by
          intro m hm
          have : ∑ l ∈ range (min 3 n), σ l ^ m = ∑ l ∈ range 2, σ l ^ m := by
            symm
            apply sum_subset (range_subset_range.mpr (by omega))
            intro l hl hl'
            rw [mem_range] at hl hl'
            rw [hzero l (by omega) hl, zero_pow hm]
          rw [this, sum_range_succ, sum_range_one]
        rw [hs2 4 (by norm_num)] at hFD
        rw [hs2 2 (by norm_num)] at hT'
        rw [show (2 ≤ Dec.cnt (min 3 n) σ (σ 0 * (max 3 n : ℕ) * (2 : ℝ)⁻¹ ^ 52)) ↔
          1 < Dec.cnt (min 3 n) σ (σ 0 * (max 3 n : ℕ) * (2 : ℝ)⁻¹ ^ 52) from Iff.rfl,
          Dec.lt_cnt_iff hd.anti _ hk, mul_assoc]
        change σ 0 * rankEps n < σ 1 ↔ _
        rw [ratio_iff he0 he1 (hd.nonneg 1) (hd.anti (by norm_num))]
        have e1 : H = 12 * (σ 0 ^ 2 * σ 1 ^ 2) := by
          have : (σ 0 ^ 2 + σ 1 ^ 2) ^ 2 = σ 0 ^ 4 + σ 1 ^ 4 + 2 * (σ 0 ^ 2 * σ 1 ^ 2) := by ring
          rw [hT'] at this
          linarith
        have e2 : T = 3 * (σ 0 ^ 2 + σ 1 ^ 2) := by linarith
        rw [e1, e2]
        constructor <;> intro h <;> linarith
      · have hn1 : n = 1 := le_antisymm h1n (NeZero.pos n)
        have hm1 : min 3 n = 1 := by omega
        have h0 := Dec.cnt_le (min 3 n) σ (σ 0 * (max 3 n : ℕ) * (2 : ℝ)⁻¹ ^ 52)
        rw [hm1, sum_range_one] at hFD hT'
        have hH : H = 0 := by
          rw [← hT'] at hFD
          linarith
        constructor
        · intro h; omega
        · intro h
          exfalso
          rw [hH, mul_zero, zero_mul] at h
          have : 0 ≤ 4 * rankEps n ^ 2 * T ^ 2 := by positivity
          linarith
    congr 1
    rw [decide_eq_decide, ← hgoal, not_le]
    exact Nat.lt_succ_iff.symm

end SkSpatial
