import Verif.Props.Ieee11
import Verif.Props.RankRounded
/-!
# C122: methods that call `np.linalg.matrix_rank`, in IEEE binary64

The rank routine is a parameter, `ext : NumpyExt XReal`, applied to arrays of floats; the run with unbounded exponents uses the same
routine (`viaFloats ext`).
-/

namespace SkSpatial
open XReal StdRounding

local notation "rn" => rounded (leftToRight (roundNearest 53))

theorem rowEq_ie : ∀ a b : List ℝ, @rowEq XReal ieee (a.map fin) (b.map fin) = @rowEq ℝ rn a b := by
  intro a b
  simp only [rowEq, List.length_map, List.zip_map', List.zip_map, List.all_map]
  congr 1

theorem rowLt_ie : ∀ a b : List ℝ, @rowLt XReal ieee (a.map fin) (b.map fin) = @rowLt ℝ rn a b
  | [], [] => rfl
  | [], _ :: _ => rfl
  | _ :: _, [] => rfl
  | x :: a, y :: b => by
    simp only [List.map_cons, rowLt, rowLt_ie a b, ieee_lt]
    rfl

theorem insertRow_ie (r : List ℝ) : ∀ L : List (List ℝ),
    @insertRow XReal ieee (r.map fin) (L.map (List.map fin)) = (@insertRow ℝ rn r L).map (List.map fin)
  | [] => rfl
  | s :: L => by
    simp only [List.map_cons, insertRow, rowEq_ie, rowLt_ie, insertRow_ie r L]
    split
    · rfl
    · split <;> rfl

theorem npUnique_ie : ∀ L : List (List ℝ), @npUnique XReal ieee (L.map (List.map fin)) = (@npUnique ℝ rn L).map (List.map fin)
  | [] => rfl
  | r :: L => by
    have ih := npUnique_ie L
    simp only [npUnique, List.map_cons, List.foldr_cons] at ih ⊢
    rw [ih, insertRow_ie]

theorem xrows_eq (P : List (E n)) : xrows P = (rows P).map (List.map fin) := by
  simp [xrows, rows, xarr, Function.comp_def]

/-- The distinct points. -/
theorem unique_ie (P : List (E n)) : ∃ Q : List (E n), @npUnique ℝ rn (rows P) = rows Q ∧ @npUnique XReal ieee (xrows P) = xrows Q ∧
    Q.Nodup ∧ ∀ x, x ∈ Q ↔ x ∈ P := by
  obtain ⟨Q, h1, h2, h3⟩ := exists_unique_rows P
  refine ⟨Q, by rw [npUnique_rounded, h1], ?_, h2, h3⟩
  rw [xrows_eq, npUnique_ie, npUnique_rounded, h1, xrows_eq]

/-- The affine rank. -/
theorem affineRank_ie [NeZero n] (ext : NumpyExt XReal) {P : List (E n)} (hP : P ≠ []) (hl : P.length ≤ 2 ^ 53) (hm : ∀ x ∈ P, RV 102 52 x)
    (tol : Option ℝ) :
    @Pts.affineRank XReal ieee ext (tol.map fin) (xrows P) = @Pts.affineRank ℝ rn (viaFloats ext) tol (rows P) := by
  obtain ⟨Q, q1, q2, q3, q4⟩ := unique_ie P
  have hQ : Q ≠ [] := by
    rintro rfl
    obtain ⟨x, hx⟩ := List.exists_mem_of_ne_nil P hP
    exact absurd ((q4 x).mpr hx) (by simp)
  have hQl : Q.length ≤ 2 ^ 53 := le_trans (q3.subperm fun x hx => (q4 x).mp hx).length_le hl
  have hQm : ∀ x ∈ Q, RV 102 52 x := fun x hx => hm x ((q4 x).mp hx)
  obtain ⟨c, c1, c2, c3⟩ := colMeans_ie hQ hQl hQm
  obtain ⟨Z, z1, z2, -, -⟩ := mapM_rel arr xarr (fun p => @vsub ℝ rn p (arr c)) (fun p => @vsub XReal ieee p (xarr c)) arr xarr (fun _ => True) Q
    (by
      intro x hx
      obtain ⟨z, z1, z2, -⟩ := ieee_vsub ((hQm x hx).mono (by norm_num) (by norm_num)) c3 (by norm_num) (by norm_num)
      exact ⟨z, z1, z2, trivial⟩)
  have e1 : (rows Q).mapM (fun p => @vsub ℝ rn p (arr c)) = .ok (rows Z) := z1
  have e2 : (xrows Q).mapM (fun p => @vsub XReal ieee p (xarr c)) = .ok (xrows Z) := z2
  simp only [Pts.affineRank, Pts.unique, q1, q2, newPoints_rd hQ, newPoints_ie hQ, ok_bind, Pts.meanCenter, Pts.centroid, c1, c2, new1D_rd,
    ieee_new1D, e1, e2, pure_ok]
  rw [xrows_eq]
  rfl

/-- C122: `points.unique()`, `affine_rank`, `are_concurrent`, `are_collinear`, `are_coplanar`. -/
theorem C122_rank [NeZero n] (ext : NumpyExt XReal) {P : List (E n)} (hP : P ≠ []) (hl : P.length ≤ 2 ^ 53) (hm : ∀ x ∈ P, ModerateV x)
    (tol : Option ℝ) :
    @Pts.unique XReal ieee (xrows P) = asRows (@Pts.unique ℝ rn (rows P)) ∧
    @Pts.affineRank XReal ieee ext (tol.map fin) (xrows P) = @Pts.affineRank ℝ rn (viaFloats ext) tol (rows P) ∧
    @Pts.areConcurrent XReal ieee ext (tol.map fin) (xrows P) = @Pts.areConcurrent ℝ rn (viaFloats ext) tol (rows P) ∧
    @Pts.areCollinear XReal ieee ext (tol.map fin) (xrows P) = @Pts.areCollinear ℝ rn (viaFloats ext) tol (rows P) ∧
    @Pts.areCoplanar XReal ieee ext (tol.map fin) (xrows P) = @Pts.areCoplanar ℝ rn (viaFloats ext) tol (rows P) := by
  have h := affineRank_ie ext hP hl (fun x hx => (hm x hx).rv.mono le_rfl (by norm_num)) tol
  refine ⟨?_, h, ?_, ?_, ?_⟩
  · obtain ⟨Q, q1, q2, q3, q4⟩ := unique_ie P
    have hQ : Q ≠ [] := by
      rintro rfl
      obtain ⟨x, hx⟩ := List.exists_mem_of_ne_nil P hP
      exact absurd ((q4 x).mpr hx) (by simp)
    simp only [Pts.unique, q1, q2, newPoints_rd hQ, newPoints_ie hQ, asRows_ok]
  · simp only [Pts.areConcurrent, h]
  · simp only [Pts.areCollinear, h]
  · simp only [Pts.areCoplanar, h]

/-- Likewise for a triangle. -/
def asTriangle : Res (Triangle ℝ) → Res (Triangle XReal) := Except.map fun t => ⟨t.pointA.map fin, t.pointB.map fin, t.pointC.map fin⟩

theorem collinear3_ie [NeZero n] (ext : NumpyExt XReal) {a b c : E n} (ha : ModerateV a) (hb : ModerateV b) (hc : ModerateV c) (tol : Option ℝ) :
    @newPoints ℝ rn [arr a, arr b, arr c] = .ok (rows [a, b, c]) ∧ @newPoints XReal ieee [xarr a, xarr b, xarr c] = .ok (xrows [a, b, c]) ∧
    @Pts.areCollinear XReal ieee ext (tol.map fin) (xrows [a, b, c]) = @Pts.areCollinear ℝ rn (viaFloats ext) tol (rows [a, b, c]) := by
  have hm : ∀ x ∈ [a, b, c], ModerateV x := by
    intro x hx
    simp only [List.mem_cons, List.not_mem_nil, or_false] at hx
    rcases hx with rfl | rfl | rfl <;> assumption
  exact ⟨newPoints_rd (P := [a, b, c]) (by simp), newPoints_ie (P := [a, b, c]) (by simp), (C122_rank ext (by simp) (by simp) hm tol).2.2.2.1⟩

/-- C122: `Triangle(a, b, c)`. -/
theorem C122_triangle_new [NeZero n] (ext : NumpyExt XReal) {a b c : E n} (ha : ModerateV a) (hb : ModerateV b) (hc : ModerateV c) :
    @Triangle.new XReal ieee ext (xarr a) (xarr b) (xarr c) = asTriangle (@Triangle.new ℝ rn (viaFloats ext) (arr a) (arr b) (arr c)) := by
  obtain ⟨e1, e2, e3⟩ := collinear3_ie ext ha hb hc none
  simp only [Triangle.new, new1D_rd, ieee_new1D, ok_bind, length_arr, length_xarr, decide_true, Bool.and_self, Bool.not_true, Bool.false_eq_true,
    if_false, e1, e2, show (none : Option XReal) = (none : Option ℝ).map fin from rfl, e3]
  cases @Pts.areCollinear ℝ rn (viaFloats ext) none (rows [a, b, c]) with
  | error e => rfl
  | ok b => cases b <;> rfl

/-- `line.to_point(1)`. -/
theorem toPoint_one_ie {p v : E n} (hp : ModerateV p) (hv : ModerateV v) :
    ∃ q : E n, @Line.toPoint ℝ rn ⟨arr p, arr v⟩ (@one ℝ rn) = .ok (arr q) ∧ @Line.toPoint XReal ieee ⟨xarr p, xarr v⟩ (@one XReal ieee) = .ok (xarr q) ∧
      RV 102 51 q := by
  obtain ⟨y, y1, y2, y3⟩ := ieee_smul Rng.one hv.rv (by norm_num) (by norm_num)
  obtain ⟨z, z1, z2, z3⟩ := ieee_vadd hp.rv (y3.mono (by norm_num) (by norm_num)) (by norm_num) (by norm_num)
  refine ⟨z, ?_, ?_, z3⟩
  · simp only [Line.toPoint, one_rd, y1, z1]
  · simp only [Line.toPoint, ieee_one, one_rd, y2, z2]

/-- C122: `line.is_coplanar(other)`. -/
theorem C122_is_coplanar [NeZero n] (ext : NumpyExt XReal) {p v q w : E n} (hp : ModerateV p) (hv : ModerateV v) (hq : ModerateV q)
    (hw : ModerateV w) (tol : Option ℝ) :
    @Line.isCoplanar XReal ieee ext (tol.map fin) ⟨xarr p, xarr v⟩ (.line ⟨xarr q, xarr w⟩) =
      @Line.isCoplanar ℝ rn (viaFloats ext) tol ⟨arr p, arr v⟩ (.line ⟨arr q, arr w⟩) := by
  obtain ⟨a, a1, a2, a3⟩ := toPoint_one_ie hp hv
  obtain ⟨b, b1, b2, b3⟩ := toPoint_one_ie hq hw
  have hm : ∀ x ∈ [p, a, q, b], RV 102 52 x := by
    intro x hx
    simp only [List.mem_cons, List.not_mem_nil, or_false] at hx
    rcases hx with rfl | rfl | rfl | rfl
    · exact hp.rv.mono le_rfl (by norm_num)
    · exact a3.mono le_rfl (by norm_num)
    · exact hq.rv.mono le_rfl (by norm_num)
    · exact b3.mono le_rfl (by norm_num)
  have e1 : @newPoints ℝ rn [arr p, arr a, arr q, arr b] = .ok (rows [p, a, q, b]) := newPoints_rd (P := [p, a, q, b]) (by simp)
  have e2 : @newPoints XReal ieee [xarr p, xarr a, xarr q, xarr b] = .ok (xrows [p, a, q, b]) := newPoints_ie (P := [p, a, q, b]) (by simp)
  simp only [Line.isCoplanar, a1, a2, b1, b2, ok_bind, e1, e2, Pts.areCoplanar, affineRank_ie ext (P := [p, a, q, b]) (by simp) (by simp) hm tol]

/-- C122: `line.intersect_line(other)` with the check of coplanarity, and `line.distance_line(other)`. -/
theorem C122_intersect_line_checked [NeZero n] (hn : n ≤ 3) (ext : NumpyExt XReal) {p v q w : E n} (hp : ModerateV p) (hv : ModerateV v)
    (hq : ModerateV q) (hw : ModerateV w) :
    (∀ check, @Line.intersectLine XReal ieee ext ⟨xarr p, xarr v⟩ ⟨xarr q, xarr w⟩ check (@Tol.default XReal ieee) =
      asFloats (@Line.intersectLine ℝ rn (viaFloats ext) ⟨arr p, arr v⟩ ⟨arr q, arr w⟩ check (@Tol.default ℝ rn))) ∧
    (v ≠ 0 → @Line.distanceLine XReal ieee ext ⟨xarr p, xarr v⟩ ⟨xarr q, xarr w⟩ =
      asFloat (@Line.distanceLine ℝ rn (viaFloats ext) ⟨arr p, arr v⟩ ⟨arr q, arr w⟩)) := by
  have hcop := C122_is_coplanar ext hp hv hq hw none
  rw [Option.map_none] at hcop
  have hn' : n ≤ 2 ^ 53 := hn.trans (by norm_num)
  have hn3 : ¬ (3 < n) := by omega
  have hpar : @Vec.isParallel XReal ieee (@Tol.default XReal ieee) (xarr v) (xarr w) =
      @Vec.isParallel ℝ rn (@Tol.default ℝ rn) (arr v) (arr w) :=
    isParallelW_ie hn' (hv.rv.mono (by norm_num) (by norm_num)) (hw.rv.mono le_rfl (by norm_num))
  constructor
  · intro check
    cases check
    · exact C122_intersect_line hn (e1 := ext) (e2 := viaFloats ext) hp hv hq hw
    have h := C122_intersect_line hn (e1 := ext) (e2 := viaFloats ext) hp hv hq hw
    simp only [Line.intersectLine, Line.dimension, length_xarr, length_arr, hpar, ne_eq, not_true_eq_false, if_false, gt_iff_lt, hn3, or_self,
      Bool.false_eq_true, pure_ok, ok_bind, if_true, hcop] at h ⊢
    cases hb : @Vec.isParallel ℝ rn (@Tol.default ℝ rn) (arr v) (arr w) with
    | error e => rfl
    | ok b =>
      cases b
      · rw [hb] at h
        simp only [ok_bind, Bool.false_eq_true, if_false] at h ⊢
        cases @Line.isCoplanar ℝ rn (viaFloats ext) none ⟨arr p, arr v⟩ (.line ⟨arr q, arr w⟩) with
        | error e => rfl
        | ok b =>
          cases b
          · rfl
          · simpa only [ok_bind, Bool.not_true, Bool.false_eq_true, if_false] using h
      · rfl
  · intro hv0
    obtain ⟨x, x1, x2, x3⟩ := fromPoints_ie hp hq
    obtain ⟨c, c1, c2, c3⟩ := cross_ie hn hv.rv hw.rv (by norm_num) (by norm_num)
    obtain ⟨-, d1, -⟩ := C96_line hn' hp hv hq hv0
    simp only [Line.distanceLine, hpar, hcop, d1]
    cases hb : @Vec.isParallel ℝ rn (@Tol.default ℝ rn) (arr v) (arr w) with
    | error e => rfl
    | ok b =>
      cases b
      · simp only [ok_bind, Bool.false_eq_true, if_false]
        cases @Line.isCoplanar ℝ rn (viaFloats ext) none ⟨arr p, arr v⟩ (.line ⟨arr q, arr w⟩) with
        | error e => rfl
        | ok b =>
          cases b
          · by_cases h3 : n = 3
            · subst h3
              have hc0 := cross_ne_zero_rn hn c1 hb
              obtain ⟨-, g1, g2⟩ := ieee_dot (by norm_num) x3 c3 (by norm_num) (by norm_num)
              obtain ⟨k1, k2⟩ := ieee_norm (by norm_num) c3 (by norm_num) (by norm_num)
              have g3 := g2.abs
              rw [← abs_rd (fl := leftToRight (roundNearest 53))] at g3
              obtain ⟨t1, t2⟩ := ieee_div g3 k2 (norm_pos_rn hc0) (by norm_num) (by norm_num)
              simp only [ok_bind, Bool.false_eq_true, if_false, x1, x2, c1, c2, g1, dot_rd, Vec.norm, k1, pure_ok, ieee_abs, t1, asFloat_ok]
            · simp only [ok_bind, Bool.false_eq_true, if_false, x1, x2, c1, c2, dot, length_arr, length_xarr, h3, error_bind, asFloat_error]
          · rfl
      · rfl

/-- C122: `Plane.from_points(a, b, c)`. -/
theorem C122_plane_from_points [NeZero n] (hn : n ≤ 3) (ext : NumpyExt XReal) {a b c : E n} (ha : ModerateV a) (hb : ModerateV b)
    (hc : ModerateV c) (tol : Option ℝ) :
    @Plane.fromPoints XReal ieee ext (tol.map fin) (xarr a) (xarr b) (xarr c) =
      asPlane (@Plane.fromPoints ℝ rn (viaFloats ext) tol (arr a) (arr b) (arr c)) := by
  have hn' : n ≤ 2 ^ 53 := hn.trans (by norm_num)
  obtain ⟨e1, e2, e3⟩ := collinear3_ie ext ha hb hc tol
  obtain ⟨x, x1, x2, x3⟩ := fromPoints_ie ha hb
  obtain ⟨y, y1, y2, y3⟩ := fromPoints_ie ha hc
  obtain ⟨w, c1, c2, c3⟩ := cross_ie hn x3 y3 (by norm_num) (by norm_num)
  obtain ⟨w1, w2⟩ := line_new_wide (by norm_num) (pad3 a) (c3.mono (by norm_num) (by norm_num : (51 + 51 + 1 : ℤ) ≤ 470))
  have hpar := isParallelW_ie hn' (x3.mono (by norm_num) (by norm_num)) y3
  simp only [Plane.fromPoints, e1, e2, ok_bind, e3, x1, x2, y1, y2, Plane.fromVectors, ieee_new1D, new1D_rd, hpar, c1, c2, setDimension3_rd hn,
    setDimension3_ie hn]
  cases @Pts.areCollinear ℝ rn (viaFloats ext) tol (rows [a, b, c]) with
  | error e => rfl
  | ok col =>
    cases col
    · simp only [ok_bind, Bool.false_eq_true, if_false]
      cases @Vec.isParallel ℝ rn (@Tol.default ℝ rn) (arr x) (arr y) with
      | error e => rfl
      | ok b =>
        cases b
        · simp only [ok_bind, Bool.false_eq_true, if_false]
          by_cases h0 : w = 0
          · rw [(w2 h0).2.2.1, (w2 h0).2.2.2, asPlane_error]
          · rw [(w1 h0).2.2.1, (w1 h0).2.2.2, asPlane_ok]
        · rfl
    · rfl

end SkSpatial
