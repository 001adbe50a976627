import Verif.Props.Ieee8
/-! # C122, continued: collections of points and the batch methods -/

namespace SkSpatial
open XReal StdRounding

variable {n : ℕ}

local notation "rn" => rounded (leftToRight (roundNearest 53))

/-! ### Lists of points -/

/-- Mapping related functions over related lists. -/
theorem mapM_rel {α β γ δ ε ζ : Type} (g : α → β) (g' : α → γ) (f : β → Res δ) (f' : γ → Res ε) (h : ζ → δ) (h' : ζ → ε) (Q : ζ → Prop) :
    ∀ l : List α, (∀ a ∈ l, ∃ z, f (g a) = .ok (h z) ∧ f' (g' a) = .ok (h' z) ∧ Q z) →
      ∃ Z : List ζ, (l.map g).mapM f = .ok (Z.map h) ∧ (l.map g').mapM f' = .ok (Z.map h') ∧ (∀ z ∈ Z, Q z) ∧ Z.length = l.length
  | [], _ => ⟨[], rfl, rfl, by simp, rfl⟩
  | a :: l, H => by
    obtain ⟨z, z1, z2, z3⟩ := H a (by simp)
    obtain ⟨Z, h1, h2, h3, h4⟩ := mapM_rel g g' f f' h h' Q l fun b hb => H b (by simp [hb])
    refine ⟨z :: Z, ?_, ?_, ?_, by simp [h4]⟩
    · rw [List.map_cons, List.mapM_cons, z1, h1]; rfl
    · rw [List.map_cons, List.mapM_cons, z2, h2]; rfl
    · intro y hy
      rcases List.mem_cons.mp hy with rfl | hy
      · exact z3
      · exact h3 y hy

theorem checkRows_ie {P : List (E n)} (h : P ≠ []) : checkRows (xrows P) = .ok () := by
  cases P with
  | nil => exact absurd rfl h
  | cons x P => simp [xrows, checkRows, List.all_eq_true]

theorem checkRows_arr {P : List (E n)} (h : P ≠ []) : checkRows (rows P) = .ok () := checkRows_rows h

theorem isFinite_xarr (x : E n) : (xarr x).all (@PyNum.isFinite XReal ieee) = true := by
  rw [List.all_eq_true]
  intro a ha
  simp only [xarr, List.mem_map] at ha
  obtain ⟨b, -, rfl⟩ := ha
  rfl

theorem newPoints_ie [NeZero n] {P : List (E n)} (h : P ≠ []) : @newPoints XReal ieee (xrows P) = .ok (xrows P) := by
  cases P with
  | nil => exact absurd rfl h
  | cons x P =>
    have h1 : ((xrows P).all fun s => s.length = (xarr x).length) = true := by simp [List.all_eq_true, xrows]
    have h2 : ((xarr x :: xrows P).all fun s => s.all (@PyNum.isFinite XReal ieee)) = true := by
      rw [List.all_eq_true]
      intro s hs
      obtain ⟨y, -, rfl⟩ := List.mem_map.mp (show s ∈ (x :: P).map xarr from hs)
      exact isFinite_xarr y
    have h3 : (xarr x).length ≠ 0 := by simp [NeZero.ne n]
    simp only [xrows, List.map_cons] at h1 h2 ⊢
    simp only [newPoints, h1, h2, h3, Bool.not_true, Bool.false_eq_true, if_false]

theorem rowDim_xrows {P : List (E n)} (h : P ≠ []) : rowDim (xrows P) = n := by
  cases P with
  | nil => exact absurd rfl h
  | cons x P => simp [xrows, rowDim]

theorem column_ie (P : List (E n)) (j : Fin n) : @column XReal ieee (xrows P) j = (P.map fun x => x j).map fin := by
  simp only [column, xrows, List.map_map]
  refine List.map_congr_left fun x _ => ?_
  simp only [Function.comp_apply, xarr]
  rw [List.getD_eq_getElem _ _ (by simp)]
  simp [arr]

@[simp] theorem asRows_ok (P : List (E n)) : asRows (.ok (rows P)) = .ok (xrows P) := by
  show Except.ok _ = _
  simp [rows, xrows, xarr, Function.comp_def]

@[simp] theorem asRows_error (e : Err) : asRows (.error e) = .error e := rfl

theorem asFloats_list (l : List ℝ) : asFloats (.ok l) = .ok (l.map fin) := rfl

theorem mean_ie {l : List ℝ} (hl0 : l ≠ []) (hl : l.length ≤ 2 ^ 53) (hm : ∀ x ∈ l, Rng 102 52 x) :
    @PyNum.div XReal ieee (@sumL XReal ieee (l.map fin)) (@PyNum.ofInt XReal ieee (l.length : ℤ)) =
      fin (@PyNum.div ℝ rn (@sumL ℝ rn l) (@PyNum.ofInt ℝ rn (l.length : ℤ))) ∧
      Rng 207 105 (@PyNum.div ℝ rn (@sumL ℝ rn l) (@PyNum.ofInt ℝ rn (l.length : ℤ))) := by
  have hN : @PyNum.ofInt ℝ rn (l.length : ℤ) ≠ 0 := by
    rw [ofInt_rd, Int.cast_natCast, Nat.cast_ne_zero]; exact (List.length_pos_iff.mpr hl0).ne'
  have h1 : (l.length : ℝ) ≤ ((2 ^ 53 : ℕ) : ℝ) := Nat.cast_le.mpr hl
  obtain ⟨o1, o2⟩ := ofInt_ie l.length (M := 53) (h1.trans (le_of_eq (by norm_num)))
  obtain ⟨s1, s2⟩ := ieee_sumL (m := 102) (M := 52) (by norm_num) (by norm_num) hm hl
  obtain ⟨d1, d2⟩ := ieee_div s2 o2 hN (by norm_num) (by norm_num)
  rw [s1, o1, d1]
  exact ⟨rfl, d2.mono (by norm_num) (by norm_num)⟩

/-- The mean of every column. -/
theorem colMeans_ie [NeZero n] {P : List (E n)} (hP : P ≠ []) (hl : P.length ≤ 2 ^ 53) (hm : ∀ x ∈ P, RV 102 52 x) :
    ∃ c : E n, @Pts.colMeans ℝ rn (rows P) = arr c ∧ @Pts.colMeans XReal ieee (xrows P) = xarr c ∧ RV 207 105 c := by
  have key : ∀ j : Fin n, @PyNum.div XReal ieee (@sumL XReal ieee ((P.map fun x => x j).map fin)) (@PyNum.ofInt XReal ieee (P.length : ℤ)) =
      fin (@PyNum.div ℝ rn (@sumL ℝ rn (P.map fun x => x j)) (@PyNum.ofInt ℝ rn (P.length : ℤ))) ∧
      Rng 207 105 (@PyNum.div ℝ rn (@sumL ℝ rn (P.map fun x => x j)) (@PyNum.ofInt ℝ rn (P.length : ℤ))) := by
    intro j
    have h := mean_ie (l := P.map fun x => x j) (by rwa [ne_eq, List.map_eq_nil_iff]) (by rwa [List.length_map])
      (by intro y hy; obtain ⟨x, hx, rfl⟩ := List.mem_map.mp hy; exact hm x hx j)
    rwa [List.length_map] at h
  obtain ⟨c, hc⟩ : ∃ c : E n, ∀ j, c j = @PyNum.div ℝ rn (@sumL ℝ rn (P.map fun x => x j)) (@PyNum.ofInt ℝ rn (P.length : ℤ)) :=
    ⟨WithLp.toLp 2 fun j => @PyNum.div ℝ rn (@sumL ℝ rn (P.map fun x => x j)) (@PyNum.ofInt ℝ rn (P.length : ℤ)), fun _ => rfl⟩
  refine ⟨c, ?_, ?_, fun j => by rw [hc j]; exact (key j).2⟩
  · apply List.ext_getElem
    · simp [Pts.colMeans, rowDim_rows hP]
    · intro j h1 h2
      have hj : j < n := by simpa using h2
      have := column_rd (fl := leftToRight (roundNearest 53)) P ⟨j, hj⟩
      simp only [Pts.colMeans, List.getElem_map, List.getElem_range, arr, List.getElem_ofFn]
      simp only at this
      rw [@toFloats_rd (leftToRight (roundNearest 53)), this, show (rows P).length = P.length by simp [rows], hc]
  · apply List.ext_getElem
    · simp [Pts.colMeans, rowDim_xrows hP]
    · intro j h1 h2
      have hj : j < n := by simpa using h2
      have := column_ie P ⟨j, hj⟩
      simp only [Pts.colMeans, List.getElem_map, List.getElem_range, xarr, arr, List.getElem_ofFn]
      simp only at this
      rw [ieee_toFloats, this, show (xrows P).length = P.length by simp [xrows], hc]
      exact (key ⟨j, hj⟩).1

theorem maxL_ie : ∀ l : List ℝ, @Pts.maxL XReal ieee (l.map fin) = fin (@Pts.maxL ℝ rn l)
  | [] => rfl
  | [x] => rfl
  | x :: y :: l => by
    have ih := maxL_ie (y :: l)
    simp only [List.map_cons] at ih ⊢
    simp only [Pts.maxL, ih, ieee_lt]
    split <;> rfl

theorem maxL_mem_rn : ∀ {l : List ℝ}, l ≠ [] → @Pts.maxL ℝ rn l ∈ l
  | [], h => absurd rfl h
  | [x], _ => by simp [Pts.maxL]
  | x :: y :: l, _ => by
    have ih := maxL_mem_rn (l := y :: l) (by simp)
    simp only [Pts.maxL]
    split
    · exact List.mem_cons_of_mem _ ih
    · exact List.mem_cons_self

theorem le_maxL_rn : ∀ {l : List ℝ}, ∀ x ∈ l, x ≤ @Pts.maxL ℝ rn l
  | [], x, h => by simp at h
  | [x], y, h => by simp at h; simp [Pts.maxL, h]
  | x :: y :: l, z, h => by
    have ih := le_maxL_rn (l := y :: l)
    simp only [Pts.maxL, lt_rd, decide_eq_true_eq]
    rcases List.mem_cons.mp h with rfl | h
    · split
      · exact le_of_lt ‹_›
      · exact le_rfl
    · split
      · exact ih z h
      · exact (ih z h).trans (not_lt.mp ‹_›)

/-- C122: `centroid`, `mean_center`, `normalize_distance` of a collection of points. -/
theorem C122_points [NeZero n] (hn : n ≤ 2 ^ 53) {P : List (E n)} (hP : P ≠ []) (hl : P.length ≤ 2 ^ 53) (hm : ∀ x ∈ P, ModerateV x) :
    @Pts.centroid XReal ieee (xrows P) = asFloats (@Pts.centroid ℝ rn (rows P)) ∧
    (@Pts.meanCenter XReal ieee (xrows P)).map Prod.fst = asRows ((@Pts.meanCenter ℝ rn (rows P)).map Prod.fst) ∧
    ((∃ x ∈ P, x ≠ 0) → @Pts.normalizeDistance XReal ieee (xrows P) = (@Pts.normalizeDistance ℝ rn (rows P)).map (List.map fin)) := by
  obtain ⟨c, c1, c2, c3⟩ := colMeans_ie hP hl fun x hx => (hm x hx).rv.mono le_rfl (by norm_num)
  refine ⟨?_, ?_, ?_⟩
  · simp only [Pts.centroid, c1, c2, new1D_rd, ieee_new1D, asFloats_ok]
  · obtain ⟨Z, z1, z2, -, -⟩ := mapM_rel arr xarr (fun p => @vsub ℝ rn p (arr c)) (fun p => @vsub XReal ieee p (xarr c)) arr xarr (fun _ => True) P
      (by
        intro x hx
        obtain ⟨z, z1, z2, -⟩ := ieee_vsub ((hm x hx).rv.mono (by norm_num) (by norm_num)) c3 (by norm_num) (by norm_num)
        exact ⟨z, z1, z2, trivial⟩)
    have e1 : (rows P).mapM (fun p => @vsub ℝ rn p (arr c)) = .ok (rows Z) := z1
    have e2 : (xrows P).mapM (fun p => @vsub XReal ieee p (xarr c)) = .ok (xrows Z) := z2
    simp only [Pts.meanCenter, Pts.centroid, c1, c2, new1D_rd, ieee_new1D, ok_bind, e1, e2, pure_ok, Except.map, asRows_ok]
  · rintro ⟨x, hx, hx0⟩
    have e : @normv XReal ieee ∘ xarr = fun y : E n => @normv XReal ieee (xarr y) := rfl
    have hmax : @Pts.maxL XReal ieee ((xrows P).map (@normv XReal ieee)) = fin (@Pts.maxL ℝ rn ((rows P).map (@normv ℝ rn))) := by
      rw [← maxL_ie]
      simp only [xrows, rows, List.map_map]
      congr 1
      refine List.map_congr_left fun y hy => ?_
      exact (ieee_norm hn (hm y hy).rv (by norm_num) (by norm_num)).1
    have hne : (rows P).map (@normv ℝ rn) ≠ [] := by simpa [rows] using hP
    have hmem := maxL_mem_rn hne
    have hrng : Rng 154 77 (@Pts.maxL ℝ rn ((rows P).map (@normv ℝ rn))) := by
      obtain ⟨y, hy, e⟩ := List.mem_map.mp hmem
      obtain ⟨z, hz, rfl⟩ := List.mem_map.mp (show y ∈ P.map arr from hy)
      rw [← e]
      exact (ieee_norm hn (hm z hz).rv (by norm_num) (by norm_num)).2
    have hpos : @Pts.maxL ℝ rn ((rows P).map (@normv ℝ rn)) ≠ 0 := by
      have h1 := le_maxL_rn (@normv ℝ rn (arr x)) (List.mem_map.mpr ⟨arr x, List.mem_map.mpr ⟨x, hx, rfl⟩, rfl⟩ :
        @normv ℝ rn (arr x) ∈ (rows P).map (@normv ℝ rn))
      have h2 := (std53.normv_rp le_rfl (CRP.refl _ x)).nonneg (norm_nonneg x)
      have h3 := norm_pos_rn hx0
      exact ne_of_gt (lt_of_lt_of_le (lt_of_le_of_ne h2 (Ne.symm h3)) h1)
    simp only [Pts.normalizeDistance, hmax]
    simp only [xrows, rows, List.map_map] at *
    refine List.map_congr_left fun y hy => ?_
    obtain ⟨z, z1, z2, -⟩ := ieee_sdiv hrng hpos (hm y hy).rv (by norm_num) (by norm_num)
    simp only [Function.comp_apply]
    rw [z1, z2]; rfl

/-- C122: `triangle.centroid()`. -/
theorem C122_triangle_centroid [NeZero n] {a b c : E n} (ha : ModerateV a) (hb : ModerateV b) (hc : ModerateV c) :
    @Triangle.centroid XReal ieee ⟨xarr a, xarr b, xarr c⟩ = asFloats (@Triangle.centroid ℝ rn ⟨arr a, arr b, arr c⟩) := by
  obtain ⟨z, c1, c2, -⟩ := colMeans_ie (P := [a, b, c]) (by simp) (by simp) (by
    intro x hx
    simp only [List.mem_cons, List.not_mem_nil, or_false] at hx
    rcases hx with rfl | rfl | rfl <;> exact (ModerateV.rv (by assumption)).mono le_rfl (by norm_num))
  have e1 := newPoints_rd (fl := leftToRight (roundNearest 53)) (P := [a, b, c]) (by simp)
  have e2 := newPoints_ie (P := [a, b, c]) (by simp)
  simp only [rows, xrows, List.map_cons, List.map_nil] at e1 e2 c1 c2
  simp only [Triangle.centroid, e1, e2, ok_bind, Pts.centroid, c1, c2, new1D_rd, ieee_new1D, asFloats_ok]

theorem getD_rng {m M : ℤ} {l : List ℝ} (h : ∀ x ∈ l, Rng m M x) (i : ℕ) : Rng m M (l.getD i 0) := by
  by_cases hi : i < l.length
  · rw [List.getD_eq_getElem _ _ hi]; exact h _ (List.getElem_mem hi)
  · rw [List.getD_eq_default _ _ (not_lt.mp hi)]; exact Rng.zero _ _

theorem getD_fin (l : List ℝ) (i : ℕ) : (l.map fin).getD i (fin 0) = fin (l.getD i 0) := List.getD_map l 0 fin

/-- C122: `area_signed` of a polygon. -/
theorem C122_area_signed {P : List (E 2)} (hP : P ≠ []) (hl : P.length ≤ 2 ^ 53) (hm : ∀ x ∈ P, ModerateV x) :
    @Measurement.areaSigned XReal ieee (xrows P) = asFloat (@Measurement.areaSigned ℝ rn (rows P)) := by
  have e1 := newPoints_rd (fl := leftToRight (roundNearest 53)) hP
  have e2 := newPoints_ie hP
  have x1 := column_rd (fl := leftToRight (roundNearest 53)) P 0
  have y1 := column_rd (fl := leftToRight (roundNearest 53)) P 1
  have x2 := column_ie P 0
  have y2 := column_ie P 1
  simp only [Fin.isValue, Fin.coe_ofNat_eq_mod, Nat.zero_mod, Nat.mod_succ] at x1 y1 x2 y2
  have hlen : (rows P).length = P.length := by simp [rows]
  have hlen' : (xrows P).length = P.length := by simp [xrows]
  have hX : ∀ j : Fin 2, ∀ y ∈ P.map fun x => x j, Rng 102 50 y := by
    intro j y hy
    obtain ⟨x, hx, rfl⟩ := List.mem_map.mp hy
    exact (hm x hx j).rng
  by_cases h3 : P.length < 3
  · simp only [Measurement.areaSigned, e1, e2, ok_bind, rowDim_rows hP, rowDim_xrows hP, hlen, hlen', h3, if_true, ne_eq, not_true_eq_false,
      if_false, asFloat_error]
  · have hz : @zero XReal ieee = fin 0 := by rw [ieee_zero, zero_rd]
    have term : ∀ (i j : ℕ), @PyNum.sub XReal ieee (@PyNum.mul XReal ieee (fin ((P.map fun x => x 0).getD j 0)) (fin ((P.map fun x => x 1).getD i 0)))
        (@PyNum.mul XReal ieee (fin ((P.map fun x => x 0).getD i 0)) (fin ((P.map fun x => x 1).getD j 0))) =
        fin (@PyNum.sub ℝ rn (@PyNum.mul ℝ rn ((P.map fun x => x 0).getD j 0) ((P.map fun x => x 1).getD i 0))
          (@PyNum.mul ℝ rn ((P.map fun x => x 0).getD i 0) ((P.map fun x => x 1).getD j 0))) ∧
        Rng 204 101 (@PyNum.sub ℝ rn (@PyNum.mul ℝ rn ((P.map fun x => x 0).getD j 0) ((P.map fun x => x 1).getD i 0))
          (@PyNum.mul ℝ rn ((P.map fun x => x 0).getD i 0) ((P.map fun x => x 1).getD j 0))) := by
      intro i j
      obtain ⟨a1, a2⟩ := ieee_mul (getD_rng (hX 0) j) (getD_rng (hX 1) i) (by norm_num) (by norm_num)
      obtain ⟨b1, b2⟩ := ieee_mul (getD_rng (hX 0) i) (getD_rng (hX 1) j) (by norm_num) (by norm_num)
      obtain ⟨c1, c2⟩ := ieee_sub a2 b2 (by norm_num) (by norm_num)
      exact ⟨by rw [a1, b1, c1], c2.mono (by norm_num) (by norm_num)⟩
    simp only [Measurement.areaSigned, e1, e2, ok_bind, rowDim_rows hP, rowDim_xrows hP, hlen, hlen', h3, ne_eq, not_true_eq_false,
      if_false, x1, x2, y1, y2, hz, zero_rd, getD_fin, pure_ok, asFloat_ok, half_ie.1, (term _ _).1]
    obtain ⟨s1, s2⟩ := ieee_sumL (m := 204) (M := 101) (l := (List.range P.length).map fun i : ℕ =>
        @PyNum.sub ℝ rn (@PyNum.mul ℝ rn ((P.map fun x => x 0).getD (if i = 0 then P.length - 1 else i - 1) 0) ((P.map fun x => x 1).getD i 0))
          (@PyNum.mul ℝ rn ((P.map fun x => x 0).getD i 0) ((P.map fun x => x 1).getD (if i = 0 then P.length - 1 else i - 1) 0)))
      (by norm_num) (by norm_num)
      (by intro y hy; obtain ⟨i, -, rfl⟩ := List.mem_map.mp hy; exact (term _ _).2) (by simpa using hl)
    rw [List.map_map] at s1
    simp only [Function.comp_def] at s1
    rw [s1]
    obtain ⟨m1, -⟩ := ieee_mul half_ie.2 s2 (by norm_num) (by norm_num)
    rw [m1]

/-! ### Batch methods of lines and planes -/

private theorem unit_bound {k a r : ℝ} (h : a ≤ Real.exp (k * eps (2 ^ (-(53 : ℕ) : ℤ))) * r) (hk : k ≤ 2 ^ 52 + 3) (hr : r ≤ 1) (hr0 : 0 ≤ r) : a ≤ 8 := by
  have e := exp_eps_le std53 (2 ^ 52 + 3) (b := 7) (by norm_num) (by norm_num)
  have h1 : Real.exp (k * eps (2 ^ (-(53 : ℕ) : ℤ))) ≤ Real.exp (((2 ^ 52 + 3 : ℕ) : ℝ) * eps (2 ^ (-(53 : ℕ) : ℤ))) := by
    refine Real.exp_le_exp.mpr (mul_le_mul_of_nonneg_right ?_ std53.eps_nonneg)
    refine hk.trans (le_of_eq (by norm_num))
  have h2 : Real.exp (k * eps (2 ^ (-(53 : ℕ) : ℤ))) ≤ 8 := by linarith
  nlinarith [Real.exp_pos (k * eps (2 ^ (-(53 : ℕ) : ℤ)))]

/-- The unit vector of a moderate vector. -/
theorem unit_ie50 (hn : n ≤ 2 ^ 53) {x : E n} (hx : ModerateV x) (hx0 : x ≠ 0) :
    ∃ z : E n, @Vec.unit ℝ rn (arr x) = .ok (arr z) ∧ @Vec.unit XReal ieee (xarr x) = .ok (xarr z) ∧ RV 179 3 z := by
  classical
  obtain ⟨z, z1, z2, -⟩ := unit_ie hn hx.rv (by norm_num) (by norm_num) (by norm_num) (by norm_num) hx0
  refine ⟨z, z1, z2, fun i => ⟨?_, ?_⟩⟩
  · obtain ⟨y, y1, y2⟩ := sdiv_rd (fl := leftToRight (roundNearest 53)) (@normv ℝ rn (arr x)) x
    have h1 : @Vec.unit ℝ rn (arr x) = .ok (arr y) := by
      simp only [Vec.unit, Vec.norm, eq_rd, zero_rd, norm_pos_rn hx0, decide_false, Bool.false_eq_true, if_false, y1]
    have h2 : z = y := arr_injective (Except.ok.inj (z1.symm.trans h1))
    rw [h2, y2 i]
    refine rn_mul2_of_le (s := 127) ?_
    by_cases h0 : x i = 0
    · left; rw [h0, zero_div]
    · right
      have h3 := ((hx i).2.1).resolve_left h0
      have h4 := (ieee_norm hn hx.rv (by norm_num) (by norm_num)).2.2
      rw [abs_div, le_div_iff₀ (abs_pos.mpr (norm_pos_rn hx0))]
      calc (2 : ℝ) ^ (-127 : ℤ) * |@normv ℝ rn (arr x)| ≤ (2 : ℝ) ^ (-127 : ℤ) * (2 : ℝ) ^ (77 : ℤ) :=
            mul_le_mul_of_nonneg_left (h4.trans (le_of_eq (by norm_num))) (by positivity)
        _ = (2 : ℝ) ^ (-50 : ℤ) := by rw [← zpow_add₀ (by norm_num)]; norm_num
        _ ≤ _ := h3
  · obtain ⟨y, y1, y2⟩ := unit_rd std53 x hx0
    have h2 : z = y := arr_injective (Except.ok.inj (z1.symm.trans y1))
    rw [h2]
    have h3 : |y i| ≤ Real.exp (((n : ℝ) + 5) / 2 * eps (2 ^ (-(53 : ℕ) : ℤ))) * |(‖x‖⁻¹ • x) i| := by
      obtain ⟨δ, hδ, e⟩ := y2 i
      rw [e, abs_mul, abs_of_pos (Real.exp_pos _), mul_comm]
      exact mul_le_mul_of_nonneg_right (Real.exp_le_exp.mpr ((le_abs_self δ).trans hδ)) (abs_nonneg _)
    have h4 : |(‖x‖⁻¹ • x) i| ≤ 1 := by
      have := PiLp.norm_apply_le (p := 2) (‖x‖⁻¹ • x) i
      rw [norm_smul, norm_inv, norm_norm, inv_mul_cancel₀ (norm_ne_zero_iff.mpr hx0)] at this
      simpa using this
    have h5 : ((n : ℝ) + 5) / 2 ≤ 2 ^ 52 + 3 := by
      have : (n : ℝ) ≤ 2 ^ 53 := by exact_mod_cast hn
      linarith
    exact (unit_bound h3 h5 h4 (abs_nonneg _)).trans (le_of_eq (by norm_num))

theorem flatten_single {α : Type} (g : ℝ → α) : ∀ F : List ℝ, (F.map fun d : ℝ => [g d]).flatten = F.map g
  | [] => rfl
  | a :: F => by rw [List.map_cons, List.flatten_cons, flatten_single g F]; rfl

/-- C122: `line.project_points`, `line.distance_points`, `line.transform_points`. -/
theorem C122_line_batch [NeZero n] (hn : n ≤ 2 ^ 53) {p v : E n} {P : List (E n)} (hp : ModerateV p) (hv : ModerateV v) (hv0 : v ≠ 0)
    (hP : P ≠ []) (hm : ∀ x ∈ P, ModerateV x) :
    @Line.projectPoints XReal ieee ⟨xarr p, xarr v⟩ (xrows P) = asRows (@Line.projectPoints ℝ rn ⟨arr p, arr v⟩ (rows P)) ∧
    @Line.distancePoints XReal ieee ⟨xarr p, xarr v⟩ (xrows P) = asFloats (@Line.distancePoints ℝ rn ⟨arr p, arr v⟩ (rows P)) ∧
    @Line.transformPoints XReal ieee ⟨xarr p, xarr v⟩ (xrows P) = asFloats (@Line.transformPoints ℝ rn ⟨arr p, arr v⟩ (rows P)) := by
  obtain ⟨u, u1, u2, u3⟩ := unit_ie50 hn hv hv0
  obtain ⟨V, v1, v2, v3, v4⟩ := mapM_rel arr xarr (fun x => @vsub ℝ rn x (arr p)) (fun x => @vsub XReal ieee x (xarr p)) arr xarr (RV 102 51) P
    fun x hx => ieee_vsub (hm x hx).rv hp.rv (by norm_num) (by norm_num)
  obtain ⟨D, d1, d2, d3, d4⟩ := mapM_rel arr xarr (fun x => @dot ℝ rn x (arr u)) (fun x => @dot XReal ieee x (xarr u)) id fin (Rng 281 107) V
    fun x hx => by
      obtain ⟨-, e1, e2⟩ := ieee_dot hn (v3 x hx) u3 (by norm_num) (by norm_num)
      exact ⟨_, dot_rd _ _ _, e1, e2.mono (by norm_num) (by norm_num)⟩
  obtain ⟨R, r1, r2, r3, r4⟩ := mapM_rel id fin (fun d => @vadd ℝ rn (@smul ℝ rn d (arr u)) (arr p))
    (fun d => @vadd XReal ieee (@smul XReal ieee d (xarr u)) (xarr p)) arr xarr (RV 460 111) D
    fun d hd => by
      obtain ⟨y, y1, y2, y3⟩ := ieee_smul (d3 d hd) u3 (by norm_num) (by norm_num)
      obtain ⟨z, z1, z2, z3⟩ := ieee_vadd y3 (hp.rv.mono (by norm_num) (by norm_num)) (by norm_num) (by norm_num)
      exact ⟨z, by rw [id, y1, z1], by rw [y2, z2], z3.mono (by norm_num) (by norm_num)⟩
  rw [List.map_id] at d1 r1
  have hR : R ≠ [] := by
    intro h
    rw [h, d4, v4] at r4
    exact hP (List.length_eq_zero_iff.mp r4.symm)
  have A : @Line.projectPoints ℝ rn ⟨arr p, arr v⟩ (rows P) = .ok (rows R) := by
    unfold Line.projectPoints
    rw [checkRows_arr hP, ok_bind, u1, show (rows P).mapM (fun x => @vsub ℝ rn x (arr p)) = .ok (V.map arr) from v1, ok_bind, ok_bind, d1, ok_bind, r1,
      ok_bind]
    exact newPoints_rd hR
  have B : @Line.projectPoints XReal ieee ⟨xarr p, xarr v⟩ (xrows P) = .ok (xrows R) := by
    unfold Line.projectPoints
    rw [checkRows_ie hP, ok_bind, u2, show (xrows P).mapM (fun x => @vsub XReal ieee x (xarr p)) = .ok (V.map xarr) from v2, ok_bind, ok_bind, d2, ok_bind,
      r2, ok_bind]
    exact newPoints_ie hR
  refine ⟨by rw [A, B, asRows_ok], ?_, ?_⟩
  · obtain ⟨W, w1, w2, w3, -⟩ := mapM_rel (Prod.map arr arr) (Prod.map xarr xarr) (fun pq => @vsub ℝ rn pq.1 pq.2)
      (fun pq => @vsub XReal ieee pq.1 pq.2) arr xarr (RV 460 112) (List.zip P R)
      fun pq h => by
        obtain ⟨h1, h2⟩ := List.of_mem_zip h
        exact ieee_vsub ((hm _ h1).rv.mono (by norm_num) (by norm_num)) (r3 _ h2) (by norm_num) (by norm_num)
    have e1 : List.zip (rows P) (rows R) = (List.zip P R).map (Prod.map arr arr) := List.zip_map
    have e2 : List.zip (xrows P) (xrows R) = (List.zip P R).map (Prod.map xarr xarr) := List.zip_map
    unfold Line.distancePoints
    rw [A, B, ok_bind, ok_bind, e1, e2, w1, w2, ok_bind, ok_bind, pure_ok, pure_ok, asFloats_list]
    congr 1
    rw [List.map_map, List.map_map, List.map_map]
    refine List.map_congr_left fun y hy => ?_
    exact (ieee_norm hn (w3 y hy) (by norm_num) (by norm_num)).1
  · obtain ⟨F, f1, f2, -, -⟩ := mapM_rel arr xarr (fun x => [arr u].mapM fun b => @dot ℝ rn x b) (fun x => [xarr u].mapM fun b => @dot XReal ieee x b)
      (fun d : ℝ => [d]) (fun d : ℝ => [fin d]) (fun _ => True) V
      fun x hx => by
        obtain ⟨-, e1, e2⟩ := ieee_dot hn (v3 x hx) u3 (by norm_num) (by norm_num)
        exact ⟨_, by rw [List.mapM_cons, dot_rd]; rfl, by rw [List.mapM_cons, e1]; rfl, trivial⟩
    unfold Line.transformPoints transformCoordinates
    simp only [u1, u2, ok_bind, checkRows_arr hP, checkRows_ie hP,
      show checkRows [arr u] = .ok () from rfl, show checkRows [xarr u] = .ok () from rfl,
      show (rows P).mapM (fun x => @vsub ℝ rn x (arr p)) = .ok (V.map arr) from v1,
      show (xrows P).mapM (fun x => @vsub XReal ieee x (xarr p)) = .ok (V.map xarr) from v2, f1, f2, pure_ok, flatten_single, asFloats_list]
    rw [List.map_id']

/-- C122: `plane.project_points`, `plane.distance_points_signed`, `plane.distance_points`. -/
theorem C122_plane_batch [NeZero n] (hn : n ≤ 2 ^ 53) {p v : E n} {P : List (E n)} (hp : ModerateV p) (hv : ModerateV v) (hv0 : v ≠ 0)
    (hP : P ≠ []) (hm : ∀ x ∈ P, ModerateV x) :
    @Plane.projectPoints XReal ieee ⟨xarr p, xarr v⟩ (xrows P) = asRows (@Plane.projectPoints ℝ rn ⟨arr p, arr v⟩ (rows P)) ∧
    @Plane.distancePointsSigned XReal ieee ⟨xarr p, xarr v⟩ (xrows P) =
      asFloats (@Plane.distancePointsSigned ℝ rn ⟨arr p, arr v⟩ (rows P)) ∧
    @Plane.distancePoints XReal ieee ⟨xarr p, xarr v⟩ (xrows P) = asFloats (@Plane.distancePoints ℝ rn ⟨arr p, arr v⟩ (rows P)) := by
  obtain ⟨u, u1, u2, u3⟩ := unit_ie50 hn hv hv0
  have dots : ∀ V : List (E n), (∀ x ∈ V, RV 102 51 x) → ∃ D : List ℝ, (V.map arr).mapM (fun x => @dot ℝ rn x (arr u)) = .ok D ∧
      (V.map xarr).mapM (fun x => @dot XReal ieee x (xarr u)) = .ok (D.map fin) ∧ (∀ d ∈ D, Rng 281 107 d) ∧ D.length = V.length := by
    intro V hV
    obtain ⟨D, d1, d2, d3, d4⟩ := mapM_rel arr xarr (fun x => @dot ℝ rn x (arr u)) (fun x => @dot XReal ieee x (xarr u)) id fin (Rng 281 107) V
      fun x hx => by
        obtain ⟨-, e1, e2⟩ := ieee_dot hn (hV x hx) u3 (by norm_num) (by norm_num)
        exact ⟨_, dot_rd _ _ _, e1, e2.mono (by norm_num) (by norm_num)⟩
    rw [List.map_id] at d1
    exact ⟨D, d1, d2, d3, d4⟩
  obtain ⟨V, v1, v2, v3, v4⟩ := mapM_rel arr xarr (fun x => @vsub ℝ rn x (arr p)) (fun x => @vsub XReal ieee x (xarr p)) arr xarr (RV 102 51) P
    fun x hx => ieee_vsub (hm x hx).rv hp.rv (by norm_num) (by norm_num)
  obtain ⟨D, d1, d2, -, -⟩ := dots V v3
  have A : @Plane.distancePointsSigned ℝ rn ⟨arr p, arr v⟩ (rows P) = .ok D := by
    simp only [Plane.distancePointsSigned, checkRows_arr hP, u1, ok_bind,
      show (rows P).mapM (fun x => @vsub ℝ rn x (arr p)) = .ok (V.map arr) from v1, d1]
  have B : @Plane.distancePointsSigned XReal ieee ⟨xarr p, xarr v⟩ (xrows P) = .ok (D.map fin) := by
    simp only [Plane.distancePointsSigned, checkRows_ie hP, u2, ok_bind,
      show (xrows P).mapM (fun x => @vsub XReal ieee x (xarr p)) = .ok (V.map xarr) from v2, d2]
  refine ⟨?_, by rw [A, B, asFloats_list], ?_⟩
  · obtain ⟨W, w1, w2, w3, w4⟩ := mapM_rel arr xarr (fun x => @vsub ℝ rn (arr p) x) (fun x => @vsub XReal ieee (xarr p) x) arr xarr (RV 102 51) P
      fun x hx => ieee_vsub hp.rv (hm x hx).rv (by norm_num) (by norm_num)
    obtain ⟨D', e1, e2, e3, e4⟩ := dots W w3
    obtain ⟨R, r1, r2, -, r4⟩ := mapM_rel (Prod.map id arr) (Prod.map fin xarr) (fun dp => @vadd ℝ rn (@smul ℝ rn dp.1 (arr u)) dp.2)
      (fun dp => @vadd XReal ieee (@smul XReal ieee dp.1 (xarr u)) dp.2) arr xarr (RV 460 111) (List.zip D' P)
      fun dp h => by
        obtain ⟨h1, h2⟩ := List.of_mem_zip h
        obtain ⟨y, y1, y2, y3⟩ := ieee_smul (e3 _ h1) u3 (by norm_num) (by norm_num)
        obtain ⟨z, z1, z2, z3⟩ := ieee_vadd y3 ((hm _ h2).rv.mono (by norm_num) (by norm_num)) (by norm_num) (by norm_num)
        exact ⟨z, by simp only [Prod.map, id]; rw [y1, z1], by simp only [Prod.map]; rw [y2, z2], z3.mono (by norm_num) (by norm_num)⟩
    have z1 : List.zip D' (rows P) = (List.zip D' P).map (Prod.map id arr) := by
      rw [← List.zip_map, List.map_id]; rfl
    have z2 : List.zip (D'.map fin) (xrows P) = (List.zip D' P).map (Prod.map fin xarr) := List.zip_map
    have hR : R ≠ [] := by
      intro h
      rw [h, List.length_zip, e4, w4, min_self] at r4
      exact hP (List.length_eq_zero_iff.mp r4.symm)
    unfold Plane.projectPoints
    simp only [checkRows_arr hP, checkRows_ie hP, u1, u2, ok_bind,
      show (rows P).mapM (fun x => @vsub ℝ rn (arr p) x) = .ok (W.map arr) from w1,
      show (xrows P).mapM (fun x => @vsub XReal ieee (xarr p) x) = .ok (W.map xarr) from w2, e1, e2, z1, z2, r1, r2]
    rw [show R.map arr = rows R from rfl, show R.map xarr = xrows R from rfl, newPoints_rd hR, newPoints_ie hR, asRows_ok]
  · unfold Plane.distancePoints
    rw [A, B, ok_bind, ok_bind, pure_ok, pure_ok, asFloats_list, List.map_map, List.map_map]
    rfl

/-- C122: `plane.sum_squares(points)`. -/
theorem C122_plane_sum_squares [NeZero n] (hn : n ≤ 2 ^ 53) {p v : E n} {P : List (E n)} (hp : ModerateV p) (hv : ModerateV v) (hv0 : v ≠ 0)
    (hP : P ≠ []) (hl : P.length ≤ 2 ^ 53) (hm : ∀ x ∈ P, ModerateV x) :
    @Plane.sumSquares XReal ieee ⟨xarr p, xarr v⟩ (xrows P) = asFloat (@Plane.sumSquares ℝ rn ⟨arr p, arr v⟩ (rows P)) := by
  obtain ⟨D, d1, d2, d3, d4⟩ := mapM_rel arr xarr (fun x => @Plane.distancePoint ℝ rn ⟨arr p, arr v⟩ x)
    (fun x => @Plane.distancePoint XReal ieee ⟨xarr p, xarr v⟩ x) id fin (Rng 333 308) P
    fun x hx => by
      obtain ⟨d, e1, e2, e3⟩ := planeSigned_ie hn hp hv (hm x hx) hv0
      refine ⟨|d|, ?_, ?_, e3.abs⟩
      · simp only [Plane.distancePoint, e1, ok_bind, abs_rd, pure_ok, id]
      · simp only [Plane.distancePoint, e2, ok_bind, ieee_abs, abs_rd, pure_ok]
  rw [List.map_id] at d1
  have e : (D.map fin).map (@sq XReal ieee) = (D.map (@sq ℝ rn)).map fin := by
    rw [List.map_map, List.map_map]
    refine List.map_congr_left fun d hd => ?_
    exact (ieee_mul (d3 d hd) (d3 d hd) (by norm_num) (by norm_num)).1
  obtain ⟨s1, -⟩ := ieee_sumL (m := 666) (M := 616) (l := D.map (@sq ℝ rn)) (by norm_num) (by norm_num)
    (by
      intro y hy
      obtain ⟨d, hd, rfl⟩ := List.mem_map.mp hy
      exact (ieee_mul (d3 d hd) (d3 d hd) (by norm_num) (by norm_num)).2.mono (by norm_num) (by norm_num))
    (by rw [List.length_map, d4]; exact hl)
  unfold Plane.sumSquares sumSquaresFn
  rw [checkRows_arr hP, checkRows_ie hP, ok_bind, ok_bind,
    show (rows P).mapM (fun x => @Plane.distancePoint ℝ rn ⟨arr p, arr v⟩ x) = .ok D from d1,
    show (xrows P).mapM (fun x => @Plane.distancePoint XReal ieee ⟨xarr p, xarr v⟩ x) = .ok (D.map fin) from d2, ok_bind, ok_bind, pure_ok, pure_ok,
    e, s1, asFloat_ok]

end SkSpatial
