import Verif.Props.Ieee15
import Verif.Props.Rounding27
import Verif.Props.Dimensions
/-!
# C129: the intersection of two planes in IEEE binary64

`plane.intersect_plane(other)` solves a system with `np.linalg.solve`, which may overflow: the model has an arbitrary routine on floats here.
-/

namespace SkSpatial
open XReal StdRounding

local notation "rn" => rounded (leftToRight (roundNearest 53))
local notation "u53" => ((2 : ℝ) ^ (-((53 : ℕ) : ℤ)))

theorem list_map_fin {l : List XReal} (h : ∀ x ∈ l, ∃ y, x = fin y) : l = (l.map XReal.value).map fin := by
  rw [List.map_map]
  have h2 : l.map (fin ∘ XReal.value) = l.map id := List.map_congr_left fun x hx => by
    obtain ⟨y, rfl⟩ := h x hx
    rfl
  rw [h2, List.map_id]

theorem new1D_map_fin (l : List ℝ) : @new1D XReal ieee (l.map fin) = asFloats (@new1D ℝ rn l) := by
  have h1 : (l.map fin).all (@PyNum.isFinite XReal ieee) = true := by simp [ieee_isFinite]
  have h2 : l.all (@PyNum.isFinite ℝ rn) = true := by simp [isFinite_rd]
  simp only [new1D, List.length_map, h1, h2]
  split_ifs <;> rfl

theorem new1D_not_finite {l : List XReal} (h : ¬ ∀ x ∈ l, ∃ y, x = fin y) : ∃ msg, @new1D XReal ieee l = .error (.valueError msg) := by
  unfold new1D
  split_ifs with h1 h2
  · exact ⟨_, rfl⟩
  · exact ⟨_, rfl⟩
  · exfalso
    apply h
    intro x hx
    rw [Bool.not_eq_true', Bool.not_eq_false, List.all_eq_true] at h2
    have := h2 x hx
    cases x with
    | fin y => exact ⟨y, rfl⟩
    | _ => cases this

theorem exists_arr3 {l : List ℝ} (h : l.length = 3) : ∃ x : E 3, l = arr x := by
  match l, h with
  | [x, y, z], _ => exact ⟨vec3 x y z, (arr_vec3 x y z).symm⟩

/-- The construction of the returned line. -/
theorem line_new_solution {d : E 3} (hd : RV 530 470 d) (l : List ℝ) :
    @Line.new XReal ieee (l.map fin) (xarr d) = asLine (@Line.new ℝ rn l (arr d)) := by
  by_cases h : l.length = 3
  · obtain ⟨x, rfl⟩ := exists_arr3 h
    obtain ⟨k1, k2⟩ := line_new_wide (by norm_num) x hd
    by_cases h0 : d = 0
    · rw [(k2 h0).1, show (arr x).map fin = xarr x from rfl, (k2 h0).2.1]; rfl
    · rw [(k1 h0).1, show (arr x).map fin = xarr x from rfl, (k1 h0).2.1]; rfl
  · simp only [Line.new, newLinePlane, new1D_map_fin, ieee_new1D, new1D_rd, ok_bind]
    have h2 : @new1D ℝ rn l = .ok l ∨ ∃ e, @new1D ℝ rn l = .error e := by
      unfold new1D
      split_ifs
      · exact .inr ⟨_, rfl⟩
      · exact .inr ⟨_, rfl⟩
      · exact .inl rfl
    rcases h2 with h2 | ⟨e, h2⟩
    · simp only [h2, show asFloats (.ok l) = .ok (l.map fin) from rfl, ok_bind, List.length_map, length_arr, length_xarr, ne_eq, h, not_false_iff, if_true, error_bind]
      rfl
    · rw [h2]; rfl

/-- `plane.intersect_plane(other)` for moderate numbers is the computation with unbounded exponent range, unless `np.linalg.solve` overflows;
then `ValueError` is raised. -/
theorem intersectPlane_ie (ext : NumpyExt XReal) {p q a b : E 3} (hp : ModerateV p) (ha : ModerateV a) (hq : ModerateV q) (hb : ModerateV b) :
    @Plane.intersectPlane XReal ieee ext (@Tol.default XReal ieee) ⟨xarr p, xarr a⟩ ⟨xarr q, xarr b⟩ =
        asLine (@Plane.intersectPlane ℝ rn (viaFloats ext) (@Tol.default ℝ rn) ⟨arr p, arr a⟩ ⟨arr q, arr b⟩) ∨
      ((∃ msg, @Plane.intersectPlane XReal ieee ext (@Tol.default XReal ieee) ⟨xarr p, xarr a⟩ ⟨xarr q, xarr b⟩ = .error (.valueError msg)) ∧
        ∃ A r s x, ext.solve A r = .ok s ∧ x ∈ s ∧ ∀ y, x ≠ fin y) := by
  have hpar : @Vec.isParallel XReal ieee (@Tol.default XReal ieee) (xarr a) (xarr b) =
      @Vec.isParallel ℝ rn (@Tol.default ℝ rn) (arr a) (arr b) :=
    isParallelW_ie (by norm_num) (ha.rv.mono (by norm_num) (by norm_num)) (hb.rv.mono (by norm_num) (by norm_num))
  obtain ⟨d, d1, d2, d3⟩ := cross_ie le_rfl ha.rv hb.rv (by norm_num) (by norm_num)
  obtain ⟨-, f2, -⟩ := ieee_dot (by norm_num) hp.rv ha.rv (by norm_num) (by norm_num)
  obtain ⟨-, g2, -⟩ := ieee_dot (by norm_num) hq.rv hb.rv (by norm_num) (by norm_num)
  have f1 := dot_rd (leftToRight (roundNearest 53)) p a
  have g1 := dot_rd (leftToRight (roundNearest 53)) q b
  simp only [Plane.intersectPlane, hpar]
  cases @Vec.isParallel ℝ rn (@Tol.default ℝ rn) (arr a) (arr b) with
  | error e => left; rfl
  | ok t =>
    cases t
    swap
    · left; rfl
    simp only [ok_bind, Bool.false_eq_true, if_false]
    obtain ⟨α, hα⟩ : ∃ α, α = @dotv ℝ rn (arr p) (arr a) := ⟨_, rfl⟩
    obtain ⟨β, hβ⟩ : ∃ β, β = @dotv ℝ rn (arr q) (arr b) := ⟨_, rfl⟩
    rw [← hα] at f1 f2
    rw [← hβ] at g1 g2
    rw [arr3 a, arr3 b] at d1
    rw [arr3 a] at f1
    rw [arr3 b] at g1
    rw [xarr3 a, xarr3 b] at d2
    rw [xarr3 a] at f2
    rw [xarr3 b] at g2
    rw [arr3 a, arr3 b, xarr3 a, xarr3 b]
    simp only [f1, f2, g1, g2, d1, d2, ok_bind, two_ie.1, ieee_zero]
    have hsol : (viaFloats ext).solve [[@two ℝ rn, @zero ℝ rn, @zero ℝ rn, a 0, b 0], [@zero ℝ rn, @two ℝ rn, @zero ℝ rn, a 1, b 1],
        [@zero ℝ rn, @zero ℝ rn, @two ℝ rn, a 2, b 2], [a 0, a 1, a 2, @zero ℝ rn, @zero ℝ rn], [b 0, b 1, b 2, @zero ℝ rn, @zero ℝ rn]]
        [@zero ℝ rn, @zero ℝ rn, @zero ℝ rn, α, β] =
      (ext.solve [[fin (@two ℝ rn), fin (@zero ℝ rn), fin (@zero ℝ rn), fin (a 0), fin (b 0)],
        [fin (@zero ℝ rn), fin (@two ℝ rn), fin (@zero ℝ rn), fin (a 1), fin (b 1)],
        [fin (@zero ℝ rn), fin (@zero ℝ rn), fin (@two ℝ rn), fin (a 2), fin (b 2)],
        [fin (a 0), fin (a 1), fin (a 2), fin (@zero ℝ rn), fin (@zero ℝ rn)],
        [fin (b 0), fin (b 1), fin (b 2), fin (@zero ℝ rn), fin (@zero ℝ rn)]]
        [fin (@zero ℝ rn), fin (@zero ℝ rn), fin (@zero ℝ rn), fin α, fin β]).map (List.map XReal.value) := rfl
    rw [hsol]
    generalize hA : [[fin (@two ℝ rn), fin (@zero ℝ rn), fin (@zero ℝ rn), fin (a 0), fin (b 0)],
        [fin (@zero ℝ rn), fin (@two ℝ rn), fin (@zero ℝ rn), fin (a 1), fin (b 1)],
        [fin (@zero ℝ rn), fin (@zero ℝ rn), fin (@two ℝ rn), fin (a 2), fin (b 2)],
        [fin (a 0), fin (a 1), fin (a 2), fin (@zero ℝ rn), fin (@zero ℝ rn)],
        [fin (b 0), fin (b 1), fin (b 2), fin (@zero ℝ rn), fin (@zero ℝ rn)]] = A
    generalize hr : [fin (@zero ℝ rn), fin (@zero ℝ rn), fin (@zero ℝ rn), fin α, fin β] = r
    cases hs : ext.solve A r with
    | error e => left; rfl
    | ok s =>
      simp only [ok_bind, show Except.map (List.map XReal.value) (Except.ok s : Res (List XReal)) = .ok (s.map XReal.value) from rfl]
      by_cases hfin : ∀ x ∈ s.take 3, ∃ y, x = fin y
      · left
        have e1 := list_map_fin hfin
        rw [← List.map_take]
        obtain ⟨l, hl⟩ : ∃ l, l = (s.take 3).map XReal.value := ⟨_, rfl⟩
        rw [← hl] at e1 ⊢
        rw [e1, new1D_map_fin]
        cases @new1D ℝ rn l with
        | error e => rfl
        | ok l' =>
          simp only [ok_bind, show asFloats (.ok l') = .ok (l'.map fin) from rfl]
          exact line_new_solution (d3.mono (by norm_num) (by norm_num)) l'
      · right
        obtain ⟨msg, hm⟩ := new1D_not_finite hfin
        refine ⟨⟨msg, by rw [hm]; rfl⟩, A, r, s, ?_⟩
        push Not at hfin
        obtain ⟨x, hx, hx2⟩ := hfin
        exact ⟨x, hs, List.mem_of_mem_take hx, hx2⟩

/-- **C129** A line that `plane.intersect_plane(other)` returns for moderate numbers has finite coordinates, whatever `np.linalg.solve` returns: its
point and direction are those of the computation with unbounded exponent range. -/
theorem C129_returned (ext : NumpyExt XReal) {p q a b : E 3} (hp : ModerateV p) (ha : ModerateV a) (hq : ModerateV q) (hb : ModerateV b)
    {P Q : Plane XReal} (hP : @Plane.new XReal ieee (xarr p) (xarr a) = .ok P) (hQ : @Plane.new XReal ieee (xarr q) (xarr b) = .ok Q)
    {L : Line XReal} (hL : @Plane.intersectPlane XReal ieee ext (@Tol.default XReal ieee) P Q = .ok L) :
    ∃ y d : E 3, L = ⟨xarr y, xarr d⟩ ∧ d ≠ 0 ∧
      @Plane.intersectPlane ℝ rn (viaFloats ext) (@Tol.default ℝ rn) ⟨arr p, arr a⟩ ⟨arr q, arr b⟩ = .ok ⟨arr y, arr d⟩ := by
  obtain ⟨-, rfl⟩ := plane_of_new_ie (by norm_num) ha hP
  obtain ⟨-, rfl⟩ := plane_of_new_ie (by norm_num) hb hQ
  rcases intersectPlane_ie ext hp ha hq hb with h | ⟨⟨msg, h⟩, -⟩
  swap
  · rw [h] at hL; cases hL
  rw [h] at hL
  cases hk : @Plane.intersectPlane ℝ rn (viaFloats ext) (@Tol.default ℝ rn) ⟨arr p, arr a⟩ ⟨arr q, arr b⟩ with
  | error e => rw [hk] at hL; cases hL
  | ok M =>
    rw [hk] at hL
    obtain rfl := (Except.ok.inj hL).symm
    simp only [Plane.intersectPlane, bind_ok_iff] at hk
    obtain ⟨par, -, hk⟩ := hk
    cases par
    swap
    · cases hk
    rw [arr3 a, arr3 b] at hk
    simp only [Bool.false_eq_true, if_false, bind_ok_iff] at hk
    obtain ⟨_, -, _, -, s, -, l, hl, d, hd, hk⟩ := hk
    obtain ⟨d', d1, -, -⟩ := cross_ie le_rfl ha.rv hb.rv (by norm_num) (by norm_num)
    rw [arr3 a, arr3 b, hd] at d1
    obtain rfl := Except.ok.inj d1
    obtain ⟨e1, e2, e3, -, -⟩ := @line_new_dims ℝ rn _ _ _ hk
    rw [length_arr] at e3
    obtain ⟨y, rfl⟩ := exists_arr3 e3
    have hM : M = ⟨arr y, arr d'⟩ := by cases M; cases e1; cases e2; rfl
    subst hM
    exact ⟨y, d', rfl, (line_new_rd std53 (by norm_num) hk).1, rfl⟩

/-- **C129** `plane.intersect_plane(other)` in binary64, with an `np.linalg.solve` that is backward stable and does not overflow: the accuracy of C117. -/
theorem C129_intersect_plane {η : ℝ} (ext : NumpyExt XReal) (hN : @StableSolve η (viaFloats ext))
    (hfin : ∀ A r s, ext.solve A r = .ok s → ∀ x ∈ s, ∃ y, x = fin y) {p q a b x : E 3}
    (hp : ModerateV p) (ha : ModerateV a) (hq : ModerateV q) (hb : ModerateV b)
    {P Q : Plane XReal} (hP : @Plane.new XReal ieee (xarr p) (xarr a) = .ok P) (hQ : @Plane.new XReal ieee (xarr q) (xarr b) = .ok Q)
    (hc : |cosE a b| < 1 - 15 / 10 ^ 10) {s m N : ℝ} (hs : s = √(1 - cosE a b ^ 2)) (hm : 0 < m) (hm2 : m ≤ 2) (hma : m ≤ ‖a‖)
    (hmb : m ≤ ‖b‖) (hN' : 2 ≤ N) (hNa : ‖a‖ ≤ N) (hNb : ‖b‖ ≤ N) (hη : 200 * η * N ≤ (s * m) ^ 2)
    (hx : x ∈ planeSet p a ∩ planeSet q b) (hmin : ∀ y ∈ planeSet p a ∩ planeSet q b, ‖x‖ ≤ ‖y‖) :
    ∃ y d : E 3, @Plane.intersectPlane XReal ieee ext (@Tol.default XReal ieee) P Q = .ok ⟨xarr y, xarr d⟩ ∧
      dist y x ≤ 70 * η * N / (s * m) ^ 2 * ‖x‖ + 12 * u53 * (‖p‖ + ‖q‖) / s ∧
      Metric.infDist y (planeSet p a) ≤ 23 * η * N / (s * m ^ 2) * (‖x‖ + 9 * u53 * (‖p‖ + ‖q‖) / s) + 8 * u53 * ‖p‖ ∧
      Metric.infDist y (planeSet q b) ≤ 23 * η * N / (s * m ^ 2) * (‖x‖ + 9 * u53 * (‖p‖ + ‖q‖) / s) + 8 * u53 * ‖q‖ ∧
      ‖d - crossE a b‖ ≤ 3 * u53 * (‖a‖ * ‖b‖) := by
  obtain ⟨a0, rfl⟩ := plane_of_new_ie (by norm_num) ha hP
  obtain ⟨b0, rfl⟩ := plane_of_new_ie (by norm_num) hb hQ
  have hP' := ((C73_constructors std53 (by norm_num) p a).1 a0).2
  have hQ' := ((C73_constructors std53 (by norm_num) q b).1 b0).2
  obtain ⟨y, d, k1, k2⟩ := C117_intersect_plane (η := η) (ext := viaFloats ext) (hS := hN) std53 (by norm_num) hP' hQ' hc hs hm hm2 hma hmb hN'
    hNa hNb hη hx hmin
  refine ⟨y, d, ?_, k2⟩
  rcases intersectPlane_ie ext hp ha hq hb with h | ⟨-, A, r, s, z, h1, h2, h3⟩
  · rw [h, k1]; rfl
  · obtain ⟨y, hy⟩ := hfin A r s h1 z h2
    exact absurd hy (h3 y)

/-- **C129** Planes with normals that are parallel, up to `5·10⁻¹⁰` in the cosine, raise `ValueError`. -/
theorem C129_parallel (ext : NumpyExt XReal) {p q a b : E 3} (hp : ModerateV p) (ha : ModerateV a) (hq : ModerateV q) (hb : ModerateV b)
    {P Q : Plane XReal} (hP : @Plane.new XReal ieee (xarr p) (xarr a) = .ok P) (hQ : @Plane.new XReal ieee (xarr q) (xarr b) = .ok Q)
    (hc : 1 - 5 / 10 ^ 10 ≤ |cosE a b|) :
    ∃ msg, @Plane.intersectPlane XReal ieee ext (@Tol.default XReal ieee) P Q = .error (.valueError msg) := by
  obtain ⟨a0, rfl⟩ := plane_of_new_ie (by norm_num) ha hP
  obtain ⟨b0, rfl⟩ := plane_of_new_ie (by norm_num) hb hQ
  have hP' := ((C73_constructors std53 (by norm_num) p a).1 a0).2
  have hQ' := ((C73_constructors std53 (by norm_num) q b).1 b0).2
  obtain ⟨msg, hm⟩ := C117_parallel (ext := viaFloats ext) std53 (by norm_num) hP' hQ' hc
  rcases intersectPlane_ie ext hp ha hq hb with h | ⟨h, -⟩
  · exact ⟨msg, by rw [h, hm]; rfl⟩
  · exact h

/-! ### The hypotheses can be met -/

/-- The planes `z = 1` and `x = 2`, with an exact `solve` on floats: the line along `y` through a point within `10⁻¹⁴` of `(2, 0, 1)`. -/
example : ∃ (ext : NumpyExt XReal) (P Q : Plane XReal) (y d : E 3), @LawfulNumpy (viaFloats ext) ∧
    @Plane.new XReal ieee (xarr (vec3 0 0 1)) (xarr (vec3 0 0 1)) = .ok P ∧
    @Plane.new XReal ieee (xarr (vec3 2 0 0)) (xarr (vec3 1 0 0)) = .ok Q ∧
    @Plane.intersectPlane XReal ieee ext (@Tol.default XReal ieee) P Q = .ok ⟨xarr y, xarr d⟩ ∧
    dist y (vec3 2 0 1) ≤ 1 / 10 ^ 14 ∧ ‖d - vec3 0 1 0‖ ≤ 1 / 10 ^ 14 := by
  have hl : @LawfulNumpy (viaFloats (onFloats (realNumpy fun _ x => x))) := by
    rw [viaFloats_onFloats]; exact realNumpy_lawful _
  have hS := @StableSolve.of_lawful (viaFloats (onFloats (realNumpy fun _ x => x))) hl
  have m1 : Moderate 1 := by simpa using moderate_int (k := 1) (by norm_num)
  have m2 : Moderate 2 := by simpa using moderate_int (k := 2) (by norm_num)
  have z := moderate_zero
  have v1 := moderate_vec3 z z m1
  have v2 := moderate_vec3 m2 z z
  have v3 := moderate_vec3 m1 z z
  have n1 : ‖(vec3 0 0 1 : E 3)‖ = 1 := by
    rw [← Real.sqrt_sq (norm_nonneg _), norm_sq3]; simp [vec3]
  have n2 : ‖(vec3 1 0 0 : E 3)‖ = 1 := by
    rw [← Real.sqrt_sq (norm_nonneg _), norm_sq3]; simp [vec3]
  have n3 : ‖(vec3 2 0 0 : E 3)‖ = 2 := by
    rw [← Real.sqrt_sq (norm_nonneg _), norm_sq3]; simp [vec3]
  have z1 : (vec3 0 0 1 : E 3) ≠ 0 := by rw [← norm_pos_iff, n1]; norm_num
  have z2 : (vec3 1 0 0 : E 3) ≠ 0 := by rw [← norm_pos_iff, n2]; norm_num
  have hc : cosE (vec3 0 0 1 : E 3) (vec3 1 0 0) = 0 := by rw [cosE, inner3]; simp [vec3]
  have hP := ((C96_constructors (by norm_num) (vec3 0 0 1) v1).1 z1).2
  have hQ := ((C96_constructors (by norm_num) (vec3 2 0 0) v3).1 z2).2
  have hcr : crossE (vec3 0 0 1) (vec3 1 0 0) = vec3 0 1 0 := by ext i; fin_cases i <;> simp [crossE, vec3]
  obtain ⟨y, d, h1, h2, -, -, h3⟩ := C129_intersect_plane (η := 0) _ hS (fun A r s h => by
      change Except.map _ _ = _ at h
      cases hk : (realNumpy fun _ x => x).solve (A.map (List.map XReal.value)) (r.map XReal.value) with
      | error e => rw [hk] at h; cases h
      | ok t =>
        rw [hk] at h
        obtain rfl := (Except.ok.inj h).symm
        intro x hx
        obtain ⟨y, -, rfl⟩ := List.mem_map.mp hx
        exact ⟨y, rfl⟩) v1 v1 v2 v3 hP hQ (x := vec3 2 0 1) (s := 1) (m := 1) (N := 2)
    (by rw [hc]; norm_num) (by rw [hc]; simp) (by norm_num) (by norm_num) n1.ge n2.ge le_rfl (by rw [n1]; norm_num)
    (by rw [n2]; norm_num) (by norm_num)
    ⟨by rw [mem_planeSet, inner3]; simp [vec3], by rw [mem_planeSet, inner3]; simp [vec3]⟩ (by
      rintro w ⟨hw1, hw2⟩
      rw [mem_planeSet, inner3] at hw1 hw2
      simp [vec3] at hw1 hw2
      apply le_of_sq_le_sq _ (norm_nonneg _)
      rw [norm_sq3, norm_sq3]
      have e1 : w 2 = 1 := by linarith
      have e2 : w 0 = 2 := by linarith
      rw [e1, e2]
      simp [vec3]
      positivity)
  refine ⟨_, _, _, y, d, hl, hP, hQ, h1, h2.trans ?_, ?_⟩
  · rw [n1, n3]; norm_num
  · rw [hcr, n1, n2] at h3
    exact h3.trans (by norm_num)

end SkSpatial
