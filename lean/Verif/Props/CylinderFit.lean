import Verif.Spec.Geometry
import Verif.Lemmas.Svd
import Verif.Lemmas.CylFit
import Verif.Props.Cylinder
import Verif.Props.FitSphere
/-! # C55: `Cylinder.best_fit` -/

namespace SkSpatial

/-! ### Distance to a line -/

theorem infDist_lineSet {n : ℕ} (q : E n) {d : E n} (hd : d ≠ 0) (x : E n) :
    Metric.infDist x (lineSet q d) = dist x (footE q d x) := by
  apply le_antisymm (Metric.infDist_le_dist_of_mem (footE_mem q d x))
  rw [Metric.le_infDist ⟨_, footE_mem q d x⟩]
  intro y hy
  exact footE_le q hd x y hy

theorem perpE_smul_self {w : E 3} (hw : ‖w‖ = 1) (t : ℝ) : perpE w (t • w) = 0 := by
  rw [perpE, real_inner_smul_left, real_inner_self_eq_norm_sq, hw]; simp

theorem perpE_sub (w x y : E 3) : perpE w (x - y) = perpE w x - perpE w y := by
  simp only [perpE, inner_sub_left, sub_smul]; abel

theorem perpE_add (w x y : E 3) : perpE w (x + y) = perpE w x + perpE w y := by
  simp only [perpE, inner_add_left, add_smul]; abel

theorem perpE_of_perp {w v : E 3} (h : inner ℝ v w = (0 : ℝ)) : perpE w v = v := by
  rw [perpE, h]; simp

theorem infDist_unit {w : E 3} (hw : ‖w‖ = 1) (q x : E 3) :
    Metric.infDist x (lineSet q w) = ‖perpE w (x - q)‖ := by
  have hw0 : w ≠ 0 := by rintro rfl; simp at hw
  rw [infDist_lineSet q hw0, dist_eq_norm, footE, hw, perpE, real_inner_comm]
  congr 1
  simp only [one_pow, div_one]
  abel

theorem lineSet_shift {n : ℕ} (q d : E n) (c : ℝ) : lineSet (q + c • d) d = lineSet q d := by
  ext x
  constructor
  · rintro ⟨a, rfl⟩
    exact ⟨c + a, by rw [add_smul, add_assoc]⟩
  · rintro ⟨a, rfl⟩
    exact ⟨a - c, by rw [sub_smul]; abel⟩

/-! ### The algebraic fit of a circle to points with mean zero -/

section algebraic
variable {Y : List (E 3)} {v : E 3}

theorem sum_map_lin (Y : List (E 3)) (f g : E 3 → ℝ) (a b : ℝ) :
    (Y.map fun y => a * f y + b * g y).sum = a * (Y.map f).sum + b * (Y.map g).sum := by
  induction Y with
  | nil => simp
  | cons y Y ih => simp only [List.map_cons, List.sum_cons, ih]; ring

theorem sum_inner_left (Y : List (E 3)) (k : E 3) : (Y.map fun y => (inner ℝ y k : ℝ)).sum = inner ℝ Y.sum k := by
  induction Y with
  | nil => simp
  | cons y Y ih => simp only [List.map_cons, List.sum_cons, inner_add_left, ih]

theorem sum_map_const (Y : List (E 3)) (c : ℝ) : (Y.map fun _ => c).sum = Y.length * c := by
  simp

/-- Pythagoras for the fit: `e` are the residuals of the solution of the normal equations. -/
theorem fit_pythagoras (hne : Y ≠ []) (h0 : Y.sum = 0) {u : ℝ} (hu : u = (Y.map fun y => (inner ℝ y y : ℝ)).sum / Y.length)
    (hv : ∀ k : E 3, 2 * (Y.map fun y => (inner ℝ y v : ℝ) * inner ℝ y k).sum =
        (Y.map fun y => (inner ℝ y y : ℝ) * inner ℝ y k).sum) (k : E 3) (t : ℝ) :
    (Y.map fun y => ((inner ℝ y y : ℝ) - t - 2 * inner ℝ y k) ^ 2).sum =
      (Y.map fun y => ((inner ℝ y y : ℝ) - u - 2 * inner ℝ y v) ^ 2).sum +
      (Y.map fun y => ((u - t) + 2 * (inner ℝ y (v - k) : ℝ)) ^ 2).sum := by
  have hl : (Y.length : ℝ) ≠ 0 := by
    rw [Nat.cast_ne_zero]; exact fun h => hne (List.length_eq_zero_iff.mp h)
  have s1 : ∀ z : E 3, (Y.map fun y => (inner ℝ y z : ℝ)).sum = 0 := by intro z; rw [sum_inner_left, h0, inner_zero_left]
  have hcross : (Y.map fun y => ((inner ℝ y y : ℝ) - u - 2 * inner ℝ y v) * ((u - t) + 2 * (inner ℝ y (v - k) : ℝ))).sum
      = 0 := by
    have e : (fun y : E 3 => ((inner ℝ y y : ℝ) - u - 2 * inner ℝ y v) * ((u - t) + 2 * (inner ℝ y (v - k) : ℝ))) =
        fun y => (u - t) * (1 * ((1 : ℝ) * inner ℝ y y + (-1) * u) + (-2) * inner ℝ y v) +
          1 * ((2 : ℝ) * (1 * ((inner ℝ y y : ℝ) * inner ℝ y (v - k)) + (-2) * ((inner ℝ y v : ℝ) * inner ℝ y (v - k)))
            + (-(2 * u)) * (inner ℝ y (v - k) : ℝ)) := by
      funext y; ring
    rw [e]
    simp only [sum_map_lin, s1, ← hv (v - k), sum_map_const]
    rw [hu]
    field_simp
    ring
  have e : (fun y : E 3 => ((inner ℝ y y : ℝ) - t - 2 * inner ℝ y k) ^ 2) = fun y =>
      1 * (1 * ((inner ℝ y y : ℝ) - u - 2 * inner ℝ y v) ^ 2 + 1 * ((u - t) + 2 * (inner ℝ y (v - k) : ℝ)) ^ 2) +
        2 * (((inner ℝ y y : ℝ) - u - 2 * inner ℝ y v) * ((u - t) + 2 * (inner ℝ y (v - k) : ℝ))) := by
    funext y; rw [inner_sub_right]; ring
  rw [e, sum_map_lin, sum_map_lin, hcross]
  ring

end algebraic

theorem argmin_spec : ∀ (l : List ℝ), l ≠ [] → Cylinder.argmin l < l.length ∧
    ∀ x ∈ l, l.getD (Cylinder.argmin l) 0 ≤ x := by
  intro l
  induction l with
  | nil => simp
  | cons a l ih =>
    intro _
    cases l with
    | nil => simp [Cylinder.argmin]
    | cons b l =>
      obtain ⟨h1, h2⟩ := ih (by simp)
      have e : Cylinder.argmin (a :: b :: l) =
          if (b :: l).getD (Cylinder.argmin (b :: l)) 0 < a then Cylinder.argmin (b :: l) + 1 else 0 := by
        conv_lhs => rw [Cylinder.argmin.eq_def]
        simp
      rw [e]
      split
      · rename_i hlt
        refine ⟨by simp only [List.length_cons] at *; omega, ?_⟩
        intro x hx
        rw [List.getD_cons_succ]
        rcases List.mem_cons.mp hx with rfl | hx
        · exact hlt.le
        · exact h2 x hx
      · rename_i hlt
        refine ⟨by simp, ?_⟩
        intro x hx
        rw [List.getD_cons_zero]
        rcases List.mem_cons.mp hx with rfl | hx
        · exact le_rfl
        · exact (not_lt.mp hlt).trans (h2 x hx)

theorem spherical_unit (th ph : ℝ) : ∃ w : E 3, Cylinder.sphericalToCartesian th ph = arr w ∧ ‖w‖ = 1 := by
  refine ⟨vec3 (Real.cos ph * Real.sin th) (Real.sin ph * Real.sin th) (Real.cos th), ?_, ?_⟩
  · simp [Cylinder.sphericalToCartesian, arr3, vec3]
  · have : ‖vec3 (Real.cos ph * Real.sin th) (Real.sin ph * Real.sin th) (Real.cos th)‖ ^ 2 = 1 := by
      rw [norm_sq3]
      simp only [vec3_0, vec3_1, vec3_2]
      have h1 := Real.sin_sq_add_cos_sq th
      have h2 := Real.sin_sq_add_cos_sq ph
      linear_combination h1 + Real.sin th ^ 2 * h2
    nlinarith [norm_nonneg (vec3 (Real.cos ph * Real.sin th) (Real.sin ph * Real.sin th) (Real.cos th))]

/-- Every unit vector has spherical coordinates. -/
theorem exists_spherical {w : E 3} (hw : ‖w‖ = 1) : ∃ th ph : ℝ, Cylinder.sphericalToCartesian th ph = arr w := by
  have hn := unit3 hw
  have hz : -1 ≤ w 2 ∧ w 2 ≤ 1 := by constructor <;> nlinarith [mul_self_nonneg (w 0), mul_self_nonneg (w 1)]
  refine ⟨Real.arccos (w 2), Complex.arg ⟨w 0, w 1⟩, ?_⟩
  have hs : Real.sin (Real.arccos (w 2)) = ‖(⟨w 0, w 1⟩ : ℂ)‖ := by
    rw [Real.sin_arccos, Complex.norm_def, Complex.normSq_mk]
    congr 1; linarith
  have h1 := Complex.norm_mul_cos_arg ⟨w 0, w 1⟩
  have h2 := Complex.norm_mul_sin_arg ⟨w 0, w 1⟩
  simp only [Cylinder.sphericalToCartesian, cos_real, sin_real, mul_real, hs, Real.cos_arccos hz.1 hz.2, arr3]
  rw [mul_comm, h1, mul_comm, h2]


theorem sum_perp (w : E 3) (X : List (E 3)) : (X.map (perpE w)).sum = perpE w X.sum := by
  induction X with
  | nil => simp [perpE]
  | cons x X ih => simp only [List.map_cons, List.sum_cons, ih, perpE_add]

theorem radius_terms {w v : E 3} (hw : ‖w‖ = 1) (hv : inner ℝ v w = (0 : ℝ)) (x : E 3) :
    (inner ℝ (v - x) (perpE w (v - x)) : ℝ) = ‖perpE w x - v‖ ^ 2 := by
  have h := perpE_inner_right (k := perpE w (v - x)) (w := w) (perpE_inner hw _) (v - x)
  rw [← h, real_inner_self_eq_norm_sq, perpE_sub, perpE_of_perp hv, norm_sub_rev]

theorem fitFromDirection_spec {P : List (E 3)} (hP : P ≠ []) (hcop : ¬ Coplanar ℝ {x | x ∈ P}) {w : E 3} (hw : ‖w‖ = 1)
    {g : E 3} (hg : g = centroidE P) {X Y : List (E 3)} (hX : X = P.map fun x => x - g) (hY : Y = X.map (perpE w)) :
    ∃ (v : E 3) (t r : ℝ), inner ℝ v w = (0 : ℝ) ∧
      (∀ k : E 3, 2 * (Y.map fun y => (inner ℝ y v : ℝ) * inner ℝ y k).sum =
        (Y.map fun y => (inner ℝ y y : ℝ) * inner ℝ y k).sum) ∧
      Cylinder.fitG (arr w) (rows X) =
        (Y.map fun y => ((inner ℝ y y : ℝ) - (Y.map fun y => (inner ℝ y y : ℝ)).sum / Y.length - 2 * inner ℝ y v) ^ 2).sum ∧
      Cylinder.fitFromDirection (rows P) (rows X) (arr g) (arr w) = .ok ⟨arr (v + g + t • w), arr ((-(2 * t)) • w), r⟩ ∧
      t < 0 ∧ 0 < r ∧ r ^ 2 = (Y.map fun y => ‖y - v‖ ^ 2).sum / Y.length ∧
      (∀ x ∈ P, t ≤ inner ℝ (x - g) w) ∧ ∃ x ∈ P, inner ℝ (x - g) w = t := by
  have hw0 : w ≠ 0 := by rintro rfl; simp at hw
  have hm := minors_ne_zero hcop hw g (hY.trans (by rw [hX]))
  obtain ⟨v, hv1, hv2, hv3⟩ := fitCenter_spec hY hw hm
  have hXlen : X.length = P.length := by rw [hX, List.length_map]
  have hYlen : Y.length = P.length := by rw [hY, List.length_map, hXlen]
  have hl : (0 : ℝ) < P.length := by
    rw [Nat.cast_pos]; exact List.length_pos_iff.mpr hP
  -- radius
  have hrad : Cylinder.fitRadius (arr w) (rows X) = .ok (Real.sqrt ((Y.map fun y => ‖y - v‖ ^ 2).sum / Y.length)) := by
    have hterms : ((rows X).mapM fun p => (do
        let d ← vsub (arr v) p
        pure (dotv d (matVec (Cylinder.projectionMatrix (arr w)) d)) : Res ℝ)) = .ok (Y.map fun y => ‖y - v‖ ^ 2) := by
      rw [mapM_rows X _ (fun x => ‖perpE w x - v‖ ^ 2) (by
        intro x _
        simp only [vsub_arr, ok_bind, matVec_projection, dotv_arr, radius_terms hw hv2, pure_ok])]
      rw [hY, List.map_map]; rfl
    simp only [Cylinder.fitRadius, hv1, new1D_arr, ok_bind, hterms, sumL_real]
    simp [hXlen, hYlen]
  -- heights
  obtain ⟨ts, hts⟩ : ∃ ts, ts = P.map fun x => (inner ℝ (x - g) w : ℝ) := ⟨_, rfl⟩
  have htsne : ts ≠ [] := by rw [hts]; simpa using hP
  obtain ⟨hlt, hmin⟩ := argmin_spec ts htsne
  obtain ⟨t, ht⟩ : ∃ t, t = ts.getD (Cylinder.argmin ts) 0 := ⟨_, rfl⟩
  rw [← ht] at hmin
  have hi : Cylinder.argmin ts < P.length := by rw [hts, List.length_map] at hlt; rw [hts]; exact hlt
  have hx0 : (inner ℝ (P[Cylinder.argmin ts] - g) w : ℝ) = t := by
    rw [ht, ← List.getElem_eq_getD (h := hlt)]
    simp only [hts, List.getElem_map]
  have hmin' : ∀ x ∈ P, t ≤ inner ℝ (x - g) w := by
    intro x hx; apply hmin; rw [hts]; exact List.mem_map.mpr ⟨x, hx, rfl⟩
  have htneg : t < 0 := by
    by_contra hcon
    rw [not_lt] at hcon
    apply hcop
    have hsum : (P.map fun x => (inner ℝ (x - g) w : ℝ)).sum = 0 := by
      have := sum_inner_left X w
      rw [hX, hg, sum_centered hP, inner_zero_left, List.map_map] at this
      rw [← this, hg]; rfl
    apply coplanar_of_normal (g := g) hw0
    intro x hx
    by_contra hne
    have hpos : 0 < (inner ℝ (x - g) w : ℝ) := lt_of_le_of_ne (hcon.trans (hmin' x hx)) (Ne.symm hne)
    have := list_sum_pos (L := P) (f := fun x => (inner ℝ (x - g) w : ℝ)) (fun x hx => hcon.trans (hmin' x hx)) hx hpos
    rw [hsum] at this
    exact lt_irrefl _ this
  have hrpos : 0 < (Y.map fun y => ‖y - v‖ ^ 2).sum := by
    have hnn : ∀ y ∈ Y, 0 ≤ ‖y - v‖ ^ 2 := fun y _ => sq_nonneg _
    by_contra hcon
    have hall : ∀ y ∈ Y, y = v := by
      intro y hy
      by_contra hne
      exact hcon (list_sum_pos hnn hy (by have := norm_pos_iff.mpr (sub_ne_zero.mpr hne); positivity))
    apply hcop
    apply Collinear.coplanar
    rw [collinear_iff_exists_forall_eq_smul_vadd]
    refine ⟨g + v, w, fun x hx => ⟨inner ℝ (x - g) w, ?_⟩⟩
    have := hall (perpE w (x - g)) (by
      rw [hY, hX]; exact List.mem_map.mpr ⟨_, List.mem_map.mpr ⟨x, hx, rfl⟩, rfl⟩)
    rw [perpE, sub_eq_iff_eq_add] at this
    rw [vadd_eq_add, add_comm g v, ← add_assoc, add_comm _ v, ← this]; abel
  have hYl : (0 : ℝ) < Y.length := by rw [hYlen]; exact hl
  have hq : 0 < (Y.map fun y => ‖y - v‖ ^ 2).sum / Y.length := div_pos hrpos hYl
  refine ⟨v, t, _, hv2, hv3, ?_, ?_, htneg, Real.sqrt_pos.mpr hq, Real.sq_sqrt hq.le, hmin', _, List.getElem_mem hi, hx0⟩
  · simp only [Cylinder.fitG, samples_rows, ← hY, hv1]
    have e : ∀ (u : ℝ), ((rows Y).map fun y => sq (dotv y y -. u -. two *. dotv y (arr v))) =
        Y.map fun y => ((inner ℝ y y : ℝ) - u - 2 * inner ℝ y v) ^ 2 := by
      intro u; simp [rows, Function.comp_def]
    have e2 : ((rows Y).map fun y => dotv y y) = Y.map fun y => (inner ℝ y y : ℝ) := by
      simp only [rows, List.map_map, Function.comp_def, dotv_arr]
    rw [e, e2, sumL_real, sumL_real]
    simp only [div_real, ofInt_real, Int.cast_natCast, length_rows, hXlen, hYlen]
  · have hcoord : Line.transformPoints ⟨arr (v + g), arr w⟩ (rows P) = .ok ts := by
      rw [transformPoints_arr _ hw0 hP, hts, hw]
      congr 1
      apply List.map_congr_left
      intro x _
      rw [inv_one, one_smul, show x - (v + g) = (x - g) - v by abel, inner_sub_left, hv2, sub_zero]
    have hget : (rows P).getD (Cylinder.argmin ts) [] = arr P[Cylinder.argmin ts] := by
      rw [← List.getElem_eq_getD (h := by simpa using hi)]
      simp [rows]
    have hfoot : footE (v + g) w P[Cylinder.argmin ts] = v + g + t • w := by
      rw [footE, hw, real_inner_comm, show P[Cylinder.argmin ts] - (v + g) = (P[Cylinder.argmin ts] - g) - v by abel,
        inner_sub_left, hv2, hx0]
      simp
    have hd : ‖v + g + t • w - (v + g)‖ = -t := by
      rw [add_sub_cancel_left, norm_smul, hw, Real.norm_eq_abs, abs_of_neg htneg, mul_one]
    have hmap : ((arr w).map fun x => x * (-t * 2)) = arr ((-(2 * t)) • w) := by
      simp only [arr3, List.map_cons, List.map_nil, PiLp.smul_apply, smul_eq_mul]
      congr 1
      · ring
      congr 1
      · ring
      congr 1
      ring
    have hdp : Pt.distancePoint (arr (v + g + t • w)) (arr (v + g)) = .ok (-t) := by
      rw [← hd, norm_sub_rev]
      simp [Pt.distancePoint]
    have hne : (-(2 * t)) • w ≠ 0 := smul_ne_zero (by linarith) hw0
    simp only [Cylinder.fitFromDirection, wrapped_real, hv1, new1D_arr, ok_bind, vadd_arr, hrad, Line.new_arr _ hw0, hcoord, hget,
      Line.projectPoint_arr, hfoot, hdp, mul_real, two_real, hmap]
    exact Cylinder.new_arr _ hne (Real.sqrt_pos.mpr hq)


/-! ### From residuals about an axis to the circle fit -/

theorem infDist_sq_eq {w : E 3} (hw : ‖w‖ = 1) (g q x : E 3) : Metric.infDist x (lineSet q w) ^ 2 =
    (inner ℝ (perpE w (x - g)) (perpE w (x - g)) : ℝ) - 2 * inner ℝ (perpE w (x - g)) (perpE w (q - g)) +
      ‖perpE w (q - g)‖ ^ 2 := by
  rw [infDist_unit hw, show x - q = (x - g) - (q - g) by abel, perpE_sub, norm_sub_sq_real, real_inner_self_eq_norm_sq]

theorem cylResidual_eq {w : E 3} (hw : ‖w‖ = 1) (g q : E 3) (s : ℝ) (P : List (E 3)) {Y : List (E 3)}
    (hY : Y = (P.map fun x => x - g).map (perpE w)) : cylResidual q w s P =
    (Y.map fun y => ((inner ℝ y y : ℝ) - (s ^ 2 - ‖perpE w (q - g)‖ ^ 2) - 2 * inner ℝ y (perpE w (q - g))) ^ 2).sum := by
  rw [cylResidual, hY, List.map_map, List.map_map]
  congr 1
  apply List.map_congr_left
  intro x _
  simp only [Function.comp]
  rw [infDist_sq_eq hw g]
  congr 1
  ring

/-- The axis and radius chosen for the direction `w` are the unique best ones for this direction. -/
theorem fit_optimal {P : List (E 3)} (hP : P ≠ []) (hcop : ¬ Coplanar ℝ {x | x ∈ P}) {w : E 3} (hw : ‖w‖ = 1)
    {g : E 3} (hg : g = centroidE P) {X Y : List (E 3)} (hX : X = P.map fun x => x - g) (hY : Y = X.map (perpE w))
    {v : E 3} {r : ℝ} (hv : inner ℝ v w = (0 : ℝ))
    (hne : ∀ k : E 3, 2 * (Y.map fun y => (inner ℝ y v : ℝ) * inner ℝ y k).sum =
        (Y.map fun y => (inner ℝ y y : ℝ) * inner ℝ y k).sum)
    (hr : 0 < r) (hr2 : r ^ 2 = (Y.map fun y => ‖y - v‖ ^ 2).sum / Y.length) :
    cylResidual (v + g) w r P =
      (Y.map fun y => ((inner ℝ y y : ℝ) - (Y.map fun y => (inner ℝ y y : ℝ)).sum / Y.length - 2 * inner ℝ y v) ^ 2).sum ∧
    r ^ 2 = (P.map fun x => Metric.infDist x (lineSet (v + g) w) ^ 2).sum / P.length ∧
    (∀ q s, cylResidual (v + g) w r P ≤ cylResidual q w s P) ∧
    (∀ q s, 0 < s → cylResidual q w s P ≤ cylResidual (v + g) w r P → lineSet q w = lineSet (v + g) w ∧ s = r) := by
  have hXlen : X.length = P.length := by rw [hX, List.length_map]
  have hYlen : Y.length = P.length := by rw [hY, List.length_map, hXlen]
  have hYne : Y ≠ [] := by
    intro h; rw [h] at hYlen; exact hP (List.length_eq_zero_iff.mp hYlen.symm)
  have hl : (Y.length : ℝ) ≠ 0 := by
    rw [Nat.cast_ne_zero]; exact fun h => hYne (List.length_eq_zero_iff.mp h)
  have hY0 : Y.sum = 0 := by rw [hY, sum_perp, hX, hg, sum_centered hP]; simp [perpE]
  have hY' : Y = (P.map fun x => x - g).map (perpE w) := by rw [hY, hX]
  have hpv : perpE w (v + g - g) = v := by rw [add_sub_cancel_right, perpE_of_perp hv]
  obtain ⟨u, hu⟩ : ∃ u, u = (Y.map fun y => (inner ℝ y y : ℝ)).sum / Y.length := ⟨_, rfl⟩
  have hur : r ^ 2 - ‖v‖ ^ 2 = u := by
    have e : (Y.map fun y => ‖y - v‖ ^ 2) = Y.map fun y =>
        1 * (1 * (inner ℝ y y : ℝ) + (-2) * inner ℝ y v) + 1 * ‖v‖ ^ 2 := by
      apply List.map_congr_left
      intro y _
      rw [norm_sub_sq_real, real_inner_self_eq_norm_sq]; ring
    rw [hr2, e, sum_map_lin, sum_map_lin, sum_inner_left, hY0, inner_zero_left, sum_map_const, hu]
    field_simp
    ring
  have h1 : cylResidual (v + g) w r P =
      (Y.map fun y => ((inner ℝ y y : ℝ) - u - 2 * inner ℝ y v) ^ 2).sum := by
    rw [cylResidual_eq hw g _ _ _ hY', hpv, hur]
  have hpyth := fit_pythagoras hYne hY0 hu hne
  have hnn : ∀ (f : E 3 → ℝ), 0 ≤ (Y.map fun y => f y ^ 2).sum := by
    intro f
    apply List.sum_nonneg
    intro t ht
    obtain ⟨z, -, rfl⟩ := List.mem_map.mp ht
    exact sq_nonneg _
  refine ⟨by rw [h1, hu], ?_, ?_, ?_⟩
  · rw [hr2, hYlen, hY', List.map_map, List.map_map]
    congr 2
    apply List.map_congr_left
    intro x _
    simp only [Function.comp]
    rw [infDist_unit hw, show x - (v + g) = (x - g) - v by abel, perpE_sub w (x - g) v, perpE_of_perp hv]
  · intro q s
    rw [h1, cylResidual_eq hw g q s _ hY', hpyth (perpE w (q - g)) (s ^ 2 - ‖perpE w (q - g)‖ ^ 2)]
    linarith [hnn fun y => (u - (s ^ 2 - ‖perpE w (q - g)‖ ^ 2)) + 2 * (inner ℝ y (v - perpE w (q - g)) : ℝ)]
  · intro q s hs hle
    rw [h1, cylResidual_eq hw g q s _ hY', hpyth] at hle
    obtain ⟨k, hk⟩ : ∃ k, k = perpE w (q - g) := ⟨_, rfl⟩
    obtain ⟨t, ht⟩ : ∃ t, t = s ^ 2 - ‖k‖ ^ 2 := ⟨_, rfl⟩
    rw [← hk, ← ht] at hle
    have hz : (Y.map fun y => ((u - t) + 2 * (inner ℝ y (v - k) : ℝ)) * ((u - t) + 2 * (inner ℝ y (v - k) : ℝ))).sum = 0 := by
      have := hnn fun y => (u - t) + 2 * (inner ℝ y (v - k) : ℝ)
      have e : (fun y : E 3 => ((u - t) + 2 * (inner ℝ y (v - k) : ℝ)) * ((u - t) + 2 * (inner ℝ y (v - k) : ℝ))) =
        fun y => ((u - t) + 2 * (inner ℝ y (v - k) : ℝ)) ^ 2 := by funext y; ring
      rw [e]; linarith
    have hzero := list_sum_sq_zero Y (fun y => (u - t) + 2 * (inner ℝ y (v - k) : ℝ)) hz
    have hut : u = t := by
      have hs0 : (Y.map fun y => 1 * (u - t) + 2 * (inner ℝ y (v - k) : ℝ)).sum = 0 := by
        apply List.sum_eq_zero
        intro a ha
        obtain ⟨y, hy, rfl⟩ := List.mem_map.mp ha
        rw [one_mul]; exact hzero y hy
      rw [sum_map_lin, sum_inner_left, hY0, inner_zero_left, sum_map_const] at hs0
      have : (Y.length : ℝ) * (u - t) = 0 := by linarith
      rcases mul_eq_zero.mp this with h | h
      · exact absurd h hl
      · linarith
    have hkw : inner ℝ k w = (0 : ℝ) := by rw [hk]; exact perpE_inner hw _
    have hvk : v = k := by
      by_contra hne'
      apply hcop
      apply coplanar_of_normal (g := g) (sub_ne_zero.mpr hne')
      intro x hx
      have hp : inner ℝ (v - k) w = (0 : ℝ) := by rw [inner_sub_left, hv, hkw, sub_zero]
      rw [← perpE_inner_right hp]
      have := hzero (perpE w (x - g)) (by
        rw [hY']; exact List.mem_map.mpr ⟨_, List.mem_map.mpr ⟨x, hx, rfl⟩, rfl⟩)
      simp only [hut, sub_self, zero_add] at this
      linarith
    have hsr : s = r := by
      have : s ^ 2 = r ^ 2 := by rw [← hut, ← hur, ← hvk] at ht; linarith
      exact (pow_left_inj₀ hs.le hr.le two_ne_zero).mp this
    refine ⟨?_, hsr⟩
    obtain ⟨c, hq⟩ : ∃ c : ℝ, q = v + g + c • w := ⟨inner ℝ (q - g) w, by rw [hvk, hk, perpE]; abel⟩
    rw [hq]
    exact lineSet_shift _ _ _


theorem sphericalToCartesian_eq (th ph : ℝ) : Cylinder.sphericalToCartesian th ph = arr (sphereDir th ph) := by
  simp [Cylinder.sphericalToCartesian, arr3, vec3, sphereDir]

theorem norm_sphereDir (th ph : ℝ) : ‖sphereDir th ph‖ = 1 := by
  obtain ⟨w, h1, h2⟩ := spherical_unit th ph
  rw [sphericalToCartesian_eq, arr_inj] at h1
  rw [h1, h2]

theorem exists_sphereDir {w : E 3} (hw : ‖w‖ = 1) : ∃ th ph : ℝ, sphereDir th ph = w := by
  obtain ⟨th, ph, h⟩ := exists_spherical hw
  rw [sphericalToCartesian_eq, arr_inj] at h
  exact ⟨th, ph, h⟩

section
variable [NumpyExt ℝ] [LawfulNumpy]

theorem not_coplanar_of_code {P : List (E 3)} (hP : P ≠ []) (h : Pts.areCoplanar none (rows P) = .ok false) :
    ¬ Coplanar ℝ {x | x ∈ P} := by
  intro hc
  obtain ⟨b0, b1, b2, -, -, h2, -, -, hcc, -⟩ := C22_predicates hP none (by simp)
  rw [h, hcc hc] at h2
  simp at h2

omit [NumpyExt ℝ] [LawfulNumpy] in
theorem cartesianToSpherical_ok (x y z : ℝ) : ∃ c, Cylinder.cartesianToSpherical x y z = .ok c := by
  have ht : (Cylinder.tolSpherical : Tol ℝ).Nonneg := by
    constructor
    · exact Tol.default_nonneg.1
    · simp [Cylinder.tolSpherical]
  obtain ⟨b, hb⟩ : ∃ b, isclose Cylinder.tolSpherical x zero = .ok b := ⟨_, isclose_eq ht _ _⟩
  obtain ⟨c, hc⟩ : ∃ c, isclose Cylinder.tolSpherical y zero = .ok c := ⟨_, isclose_eq ht _ _⟩
  simp only [Cylinder.cartesianToSpherical, hb, hc, ok_bind]
  cases b
  · exact ⟨_, rfl⟩
  · exact ⟨_, rfl⟩

theorem fitDirection_ok {P : List (E 3)} (hP : P ≠ []) (h : Pts.areCoplanar none (rows P) = .ok false) (g : E 3)
    {X : List (E 3)} (hX : X = P.map fun x => x - g) :
    ∃ x0 : ℝ × ℝ, Cylinder.fitDirection (rows X) = .ok (arr (sphereDir
      (NumpyExt.minimizePowell (fun th ph => Cylinder.fitG (arr (sphereDir th ph)) (rows X)) x0).1
      (NumpyExt.minimizePowell (fun th ph => Cylinder.fitG (arr (sphereDir th ph)) (rows X)) x0).2)) := by
  obtain ⟨b0, b1, b2, h0, h1, h2, -, -, -, h01, h12, -, htr⟩ := C22_predicates hP none (by simp)
  rw [h] at h2
  have hb0 : b0 = false := by
    cases hb2 : b2
    · cases hb0 : b0
      · rfl
      · exact absurd (h12 (h01 hb0)) (by rw [hb2]; simp)
    · rw [hb2] at h2; simp at h2
  have hXne : X ≠ [] := by rw [hX]; simpa using hP
  have hconc : Pts.areConcurrent none (rows X) = .ok false := by
    have := (htr (-g)).1
    rw [hb0] at this
    rw [hX]
    simpa [sub_eq_add_neg] using this
  obtain ⟨-, -, hfit⟩ := C31_line_best_fit hXne none (by simp) true
  obtain ⟨L, err, c, u, hL, hnew, -, hu, -⟩ := hfit hconc
  obtain ⟨-, hu0, rfl⟩ := Line.new_ok hnew
  obtain ⟨x0, hx0⟩ := cartesianToSpherical_ok ((‖u‖⁻¹ • u) 0) ((‖u‖⁻¹ • u) 1) ((‖u‖⁻¹ • u) 2)
  refine ⟨x0, ?_⟩
  have hinit : Cylinder.initialDirection (rows X) = .ok x0 := by
    simp only [Cylinder.initialDirection, hL, ok_bind, unit_arr hu0]
    rw [arr3]
    exact hx0
  simp only [Cylinder.fitDirection, hinit, ok_bind, sphericalToCartesian_eq, new1D_arr]

theorem bestFit_eq {P : List (E 3)} (hlen : 6 ≤ P.length) (h : Pts.areCoplanar none (rows P) = .ok false) :
    ∃ x0 : ℝ × ℝ, ∀ (g : E 3) (X : List (E 3)) (w : E 3), g = centroidE P → X = (P.map fun x => x - g) →
      w = sphereDir
        (NumpyExt.minimizePowell (fun th ph => Cylinder.fitG (arr (sphereDir th ph)) (rows X)) x0).1
        (NumpyExt.minimizePowell (fun th ph => Cylinder.fitG (arr (sphereDir th ph)) (rows X)) x0).2 →
      Cylinder.bestFit (rows P) = Cylinder.fitFromDirection (rows P) (rows X) (arr g) (arr w) := by
  have hP : P ≠ [] := by rintro rfl; simp at hlen
  obtain ⟨x0, hx0⟩ := fitDirection_ok hP h (centroidE P) rfl
  refine ⟨x0, ?_⟩
  rintro g X w rfl rfl rfl
  have h6 : ¬ P.length < 6 := by omega
  simp only [Cylinder.bestFit, newPoints_rows hP, ok_bind, rowDim_rows hP, length_rows, h6, h, meanCenter_rows hP, hx0]
  simp

/-- C55: for at least six points that the coplanarity test does not reject, `best_fit` returns a cylinder whatever
the optimiser does.  The optimiser is called with a function `f` of two angles whose value is the least residual of
all cylinders with that axis direction.  The cylinder has the direction the optimiser returns; its axis and radius
are the unique best ones for this direction; the radius is the root mean square distance of the points to the
axis; the base is at the lowest point and the length is twice the height of the centroid above the base.  If the
optimiser returned a global minimum of `f`, the cylinder is the best of all. -/
theorem C55_best_fit {P : List (E 3)} (hlen : 6 ≤ P.length) (hcop : Pts.areCoplanar none (rows P) = .ok false) :
    ∃ (C : Cylinder ℝ) (p w g : E 3) (L r : ℝ) (f : ℝ → ℝ → ℝ) (x0 : ℝ × ℝ),
      Cylinder.bestFit (rows P) = .ok C ∧ Cylinder.new (arr p) (arr (L • w)) r = .ok C ∧
      Pts.centroid (rows P) = .ok (arr g) ∧ ‖w‖ = 1 ∧ 0 < L ∧ 0 < r ∧
      w = sphereDir (NumpyExt.minimizePowell f x0).1 (NumpyExt.minimizePowell f x0).2 ∧
      (∀ th ph, IsLeast {e | ∃ q s, e = cylResidual q (sphereDir th ph) s P} (f th ph)) ∧
      (∀ q s, cylResidual p w r P ≤ cylResidual q w s P) ∧
      (∀ q s, 0 < s → cylResidual q w s P ≤ cylResidual p w r P → lineSet q w = lineSet p w ∧ s = r) ∧
      r ^ 2 = (P.map fun x => Metric.infDist x (lineSet p w) ^ 2).sum / P.length ∧
      (∀ x ∈ P, 0 ≤ (inner ℝ (x - p) w : ℝ)) ∧ (∃ x ∈ P, (inner ℝ (x - p) w : ℝ) = 0) ∧
      L = 2 * inner ℝ (g - p) w ∧
      ((∀ th ph, f (NumpyExt.minimizePowell f x0).1 (NumpyExt.minimizePowell f x0).2 ≤ f th ph) →
        ∀ q d s, d ≠ 0 → cylResidual p w r P ≤ cylResidual q d s P) := by
  have hP : P ≠ [] := by rintro rfl; simp at hlen
  have hnc := not_coplanar_of_code hP hcop
  obtain ⟨x0, hx0⟩ := bestFit_eq hlen hcop
  obtain ⟨g, hg⟩ : ∃ g, g = centroidE P := ⟨_, rfl⟩
  obtain ⟨X, hX⟩ : ∃ X, X = P.map fun x => x - g := ⟨_, rfl⟩
  obtain ⟨f, hf⟩ : ∃ f : ℝ → ℝ → ℝ, f = fun th ph => Cylinder.fitG (arr (sphereDir th ph)) (rows X) := ⟨_, rfl⟩
  obtain ⟨w, hwdef⟩ : ∃ w, w = sphereDir (NumpyExt.minimizePowell f x0).1 (NumpyExt.minimizePowell f x0).2 := ⟨_, rfl⟩
  have hw : ‖w‖ = 1 := by rw [hwdef]; exact norm_sphereDir _ _
  have hbest := hx0 g X w hg hX (by rw [hwdef, hf])
  obtain ⟨v, t, r, hv, hne, hG, hfit, ht, hr, hr2, hmin, xm, hxm, hxmt⟩ :=
    fitFromDirection_spec hP hnc hw hg hX rfl
  obtain ⟨o1, o2, o3, o4⟩ := fit_optimal hP hnc hw hg hX rfl hv hne hr hr2
  have hw0 : w ≠ 0 := by rintro rfl; simp at hw
  have hww : (inner ℝ w w : ℝ) = 1 := by rw [real_inner_self_eq_norm_sq, hw]; norm_num
  have hline : lineSet (v + g + t • w) w = lineSet (v + g) w := lineSet_shift _ _ _
  have hres : ∀ s, cylResidual (v + g + t • w) w s P = cylResidual (v + g) w s P := by
    intro s; rw [cylResidual, cylResidual, hline]
  have hheight : ∀ x : E 3, (inner ℝ (x - (v + g + t • w)) w : ℝ) = inner ℝ (x - g) w - t := by
    intro x
    rw [show x - (v + g + t • w) = (x - g) - v - t • w by abel, inner_sub_left, inner_sub_left, hv, real_inner_smul_left,
      hww]; ring
  have hleast : ∀ th ph, IsLeast {e | ∃ q s, e = cylResidual q (sphereDir th ph) s P} (f th ph) := by
    intro th ph
    obtain ⟨v', t', r', hv', hne', hG', -, -, hr', hr2', -⟩ :=
      fitFromDirection_spec hP hnc (norm_sphereDir th ph) hg hX rfl
    obtain ⟨q1, -, q3, -⟩ := fit_optimal hP hnc (norm_sphereDir th ph) hg hX rfl hv' hne' hr' hr2'
    have e : f th ph = cylResidual (v' + g) (sphereDir th ph) r' P := by rw [hf, q1]; exact hG'
    rw [e]
    refine ⟨⟨_, _, rfl⟩, ?_⟩
    rintro _ ⟨q, s, rfl⟩
    exact q3 q s
  refine ⟨_, v + g + t • w, w, g, -(2 * t), r, f, x0, hbest.trans hfit, ?_, ?_, hw, by linarith, hr, hwdef, hleast, ?_, ?_,
    ?_, ?_, ?_, ?_, ?_⟩
  · exact Cylinder.new_arr _ (smul_ne_zero (by linarith) hw0) hr
  · rw [centroid_rows hP, hg]
  · intro q s; rw [hres]; exact o3 q s
  · intro q s hs; rw [hres, hline]; exact o4 q s hs
  · rw [hline]; exact o2
  · intro x hx; rw [hheight]; linarith [hmin x hx]
  · exact ⟨xm, hxm, by rw [hheight, hxmt]; ring⟩
  · rw [hheight, sub_self, inner_zero_left]; ring
  · intro hglob q d s hd
    have hdn : ‖d‖ ≠ 0 := norm_ne_zero_iff.mpr hd
    obtain ⟨th, ph, hdir⟩ := exists_sphereDir (w := ‖d‖⁻¹ • d) (by
      rw [norm_smul, norm_inv, norm_norm, inv_mul_cancel₀ hdn])
    have hl2 : lineSet q d = lineSet q (sphereDir th ph) := by
      rw [hdir]
      ext x
      constructor
      · rintro ⟨a, rfl⟩
        exact ⟨a * ‖d‖, by rw [smul_smul, mul_assoc, mul_inv_cancel₀ hdn, mul_one]⟩
      · rintro ⟨a, rfl⟩
        exact ⟨a * ‖d‖⁻¹, by rw [smul_smul]⟩
    have e2 : cylResidual q d s P = cylResidual q (sphereDir th ph) s P := by rw [cylResidual, cylResidual, hl2]
    have hfw : cylResidual (v + g + t • w) w r P = f (NumpyExt.minimizePowell f x0).1 (NumpyExt.minimizePowell f x0).2 := by
      rw [hres, o1, ← hG, hf, hwdef, hf]
    rw [hfw, e2]
    exact (hglob th ph).trans ((hleast th ph).2 ⟨q, s, rfl⟩)

omit [NumpyExt ℝ] [LawfulNumpy] in
theorem infDist_eq_iff {q d : E 3} (hd : d ≠ 0) {s : ℝ} (hs : 0 < s) (x : E 3) :
    x ∈ infCyl q d s ↔ Metric.infDist x (lineSet q d) ^ 2 - s ^ 2 = 0 := by
  rw [mem_infCyl hd hs, infDist_lineSet q hd, dist_footE_rad2 q hd, sub_eq_zero]

omit [NumpyExt ℝ] [LawfulNumpy] in
theorem residual_zero_iff {q d : E 3} (hd : d ≠ 0) {s : ℝ} (hs : 0 < s) (P : List (E 3)) :
    cylResidual q d s P ≤ 0 ↔ ∀ x ∈ P, x ∈ infCyl q d s := by
  have hnn : 0 ≤ cylResidual q d s P := by
    apply List.sum_nonneg
    intro t ht
    obtain ⟨z, -, rfl⟩ := List.mem_map.mp ht
    exact sq_nonneg _
  constructor
  · intro h x hx
    rw [infDist_eq_iff hd hs]
    refine list_sum_sq_zero P (fun x => Metric.infDist x (lineSet q d) ^ 2 - s ^ 2) ?_ x hx
    have := le_antisymm h hnn
    rw [cylResidual] at this
    rw [← this]; congr 2; funext y; ring
  · intro h
    apply le_of_eq
    apply List.sum_eq_zero
    intro t ht
    obtain ⟨x, hx, rfl⟩ := List.mem_map.mp ht
    rw [(infDist_eq_iff hd hs x).mp (h x hx)]; norm_num

omit [NumpyExt ℝ] [LawfulNumpy] in
theorem lineSet_smul {n : ℕ} (q d : E n) {c : ℝ} (hc : c ≠ 0) : lineSet q (c • d) = lineSet q d := by
  ext x
  constructor
  · rintro ⟨a, rfl⟩
    exact ⟨a * c, by rw [smul_smul]⟩
  · rintro ⟨a, rfl⟩
    exact ⟨a * c⁻¹, by rw [smul_smul, mul_assoc, inv_mul_cancel₀ hc, mul_one]⟩

/-- C55: points that lie exactly on an infinite cylinder.  If the direction of the result is the true one, its axis
and radius are the true ones; in this case the result contains all the points iff no point is higher above the base
than twice the centroid.  (`hC` only names the base point, the axis vector and the radius of the result.) -/
theorem C55_exact_data {P : List (E 3)} (hlen : 6 ≤ P.length) (hcop : Pts.areCoplanar none (rows P) = .ok false)
    {q d : E 3} {s : ℝ} (hd : d ≠ 0) (hs : 0 < s) (hon : ∀ x ∈ P, x ∈ infCyl q d s)
    {C : Cylinder ℝ} (hfit : Cylinder.bestFit (rows P) = .ok C) {p a : E 3} {r : ℝ}
    (hC : Cylinder.new (arr p) (arr a) r = .ok C) (hpar : ∃ c : ℝ, a = c • d) :
    lineSet p a = lineSet q d ∧ r = s ∧ (∀ x ∈ P, x ∈ infCyl p a r) ∧
    ∀ g : E 3, Pts.centroid (rows P) = .ok (arr g) →
      ((∀ x ∈ P, C.isPointWithin (arr x) = .ok true) ↔ ∀ x ∈ P, (inner ℝ (x - p) a : ℝ) ≤ 2 * inner ℝ (g - p) a) := by
  classical
  obtain ⟨C', p', w, g, L, r', f, x0, h1, h2, h3, hw, hL, hr, -, -, hopt, huniq, -, hlow, -, hLg, -⟩ := C55_best_fit hlen hcop
  rw [hfit] at h1
  obtain rfl := Except.ok.inj h1
  have hC2 := hC
  obtain ⟨ha, hr0, rfl⟩ := Cylinder.new_ok hC
  obtain ⟨-, -, e⟩ := Cylinder.new_ok h2
  rw [Cylinder.mk.injEq, arr_inj, arr_inj] at e
  obtain ⟨rfl, rfl, rfl⟩ := e
  obtain ⟨c, hc⟩ := hpar
  have hw0 : w ≠ 0 := by rintro rfl; simp at hw
  have hcd : c ≠ 0 := by rintro rfl; rw [zero_smul] at hc; exact ha hc
  have hline : ∀ z : E 3, lineSet z w = lineSet z d := by
    intro z; rw [← lineSet_smul z w hL.ne', hc, lineSet_smul z d hcd]
  have hline' : ∀ z : E 3, lineSet z (L • w) = lineSet z w := fun z => lineSet_smul z w hL.ne'
  have hres : cylResidual q w s P ≤ 0 := by
    have := (residual_zero_iff hd hs P).mpr hon
    rwa [cylResidual, ← hline q] at this
  have hnn : ∀ z s, 0 ≤ cylResidual z w s P := by
    intro z s
    apply List.sum_nonneg
    intro t ht
    obtain ⟨z, -, rfl⟩ := List.mem_map.mp ht
    exact sq_nonneg _
  obtain ⟨u1, u2⟩ := huniq q s hs (hres.trans (hnn _ _))
  have hon' : ∀ x ∈ P, x ∈ infCyl p (L • w) r := by
    have := (hopt q s).trans hres
    rw [cylResidual, ← hline' p] at this
    exact (residual_zero_iff ha hr P).mp this
  refine ⟨by rw [hline', ← u1, hline], u2.symm, hon', ?_⟩
  intro g' hg'
  rw [h3] at hg'
  obtain rfl : g = g' := by simpa using hg'
  have hnorm : ‖L • w‖ = L := by rw [norm_smul, hw, Real.norm_eq_abs, abs_of_pos hL, mul_one]
  have hps : ∀ x : E 3, psignedE p (L • w) x = inner ℝ (x - p) w := by
    intro x
    rw [psignedE, hnorm, smul_smul, inv_mul_cancel₀ hL.ne', one_smul]
  refine forall₂_congr fun x hx => ?_
  rw [C50_is_point_within hC2, Except.ok.injEq, decide_eq_true_eq, mem_solidCyl ha hr, hps, hnorm,
    (mem_infCyl ha hr).mp (hon' x hx), real_inner_smul_right, real_inner_smul_right]
  constructor
  · rintro ⟨-, hle, -⟩
    rw [hLg] at hle
    nlinarith
  · intro hle
    refine ⟨hlow x hx, ?_, le_rfl⟩
    have : (inner ℝ (x - p) w : ℝ) ≤ 2 * inner ℝ (g - p) w := by
      by_contra hcon
      rw [not_le] at hcon
      nlinarith
    linarith

/-- C55: the checks. -/
theorem C55_errors {n : ℕ} [NeZero n] {P : List (E n)} (hP : P ≠ []) :
    (n ≠ 3 → ∃ msg, Cylinder.bestFit (rows P) = .error (.valueError msg)) ∧
    (P.length < 6 → ∃ msg, Cylinder.bestFit (rows P) = .error (.valueError msg)) ∧
    (Pts.areCoplanar none (rows P) = .ok true → ∃ msg, Cylinder.bestFit (rows P) = .error (.valueError msg)) ∧
    (Coplanar ℝ {x | x ∈ P} → ∃ msg, Cylinder.bestFit (rows P) = .error (.valueError msg)) := by
  have h1 : n ≠ 3 → ∃ msg, Cylinder.bestFit (rows P) = .error (.valueError msg) := by
    intro h
    exact ⟨_, by simp [Cylinder.bestFit, newPoints_rows hP, rowDim_rows hP, h]; rfl⟩
  have h2 : P.length < 6 → ∃ msg, Cylinder.bestFit (rows P) = .error (.valueError msg) := by
    intro h
    by_cases h3 : n = 3
    · exact ⟨_, by simp [Cylinder.bestFit, newPoints_rows hP, rowDim_rows hP, h3, h]; rfl⟩
    · exact h1 h3
  have h3 : Pts.areCoplanar none (rows P) = .ok true → ∃ msg, Cylinder.bestFit (rows P) = .error (.valueError msg) := by
    intro h
    by_cases h3 : n = 3
    · by_cases h6 : P.length < 6
      · exact h2 h6
      · exact ⟨_, by simp [Cylinder.bestFit, newPoints_rows hP, rowDim_rows hP, h3, h6, h]; rfl⟩
    · exact h1 h3
  refine ⟨h1, h2, h3, ?_⟩
  intro hc
  obtain ⟨b0, b1, b2, -, -, hb, -, -, hcc, -⟩ := C22_predicates hP none (by simp)
  exact h3 (by rw [hb, hcc hc])

/-! ### The length -/

/-- Six points of the unit cylinder around the z axis: four of height 0 and two of height 8. -/
noncomputable def tallPoints : List (E 3) :=
  [vec3 1 0 0, vec3 (-1) 0 0, vec3 0 1 0, vec3 0 (-1) 0, vec3 1 0 8, vec3 (-1) 0 8]

omit [NumpyExt ℝ] [LawfulNumpy] in
theorem tallPoints_on : ∀ x ∈ tallPoints, x ∈ infCyl (vec3 0 0 0) (vec3 0 0 1) 1 := by
  intro x hx
  simp only [tallPoints, List.mem_cons, List.not_mem_nil, or_false] at hx
  have hn : ∀ a b : ℝ, a ^ 2 + b ^ 2 = 1 → ‖vec3 a b 0‖ = 1 := by
    intro a b h
    have : ‖vec3 a b 0‖ ^ 2 = 1 := by rw [norm_sq3]; simp only [vec3_0, vec3_1, vec3_2]; linarith
    nlinarith [norm_nonneg (vec3 a b 0)]
  have key : ∀ a b c : ℝ, a ^ 2 + b ^ 2 = 1 → vec3 a b c ∈ infCyl (vec3 0 0 0) (vec3 0 0 1) 1 := by
    intro a b c h
    refine ⟨c, vec3 a b 0, ?_, hn a b h, ?_⟩
    · rw [inner3]; simp only [vec3_0, vec3_1, vec3_2]; ring
    · ext i; fin_cases i <;> simp [vec3]
  rcases hx with rfl | rfl | rfl | rfl | rfl | rfl <;> exact key _ _ _ (by norm_num)

theorem tallPoints_accepted : Pts.areCoplanar none (rows tallPoints) = .ok false := by
  classical
  have hnd : tallPoints.Nodup := by
    have h : ∀ a b c d e f : ℝ, vec3 a b c = vec3 d e f ↔ a = d ∧ b = e ∧ c = f := by
      intro a b c d e f
      constructor
      · intro h
        exact ⟨by simpa [vec3] using congrFun (congrArg WithLp.ofLp h) 0,
          by simpa [vec3] using congrFun (congrArg WithLp.ofLp h) 1, by simpa [vec3] using congrFun (congrArg WithLp.ofLp h) 2⟩
      · rintro ⟨rfl, rfl, rfl⟩; rfl
    simp only [tallPoints, List.nodup_cons, List.mem_cons, List.not_mem_nil, or_false, not_or, h, not_and_or,
      List.nodup_nil, not_false_eq_true, and_true]
    norm_num
  have hs : ∀ x : E 3, spread tallPoints.toFinset x = 4 * x 0 ^ 2 + 2 * x 1 ^ 2 + (256 / 3) * x 2 ^ 2 := by
    intro x
    rw [spread, List.toFinset_card_of_nodup hnd, List.sum_toFinset _ hnd, List.sum_toFinset _ hnd]
    simp [tallPoints, inner3, vec3]
    ring
  have hr : Pts.affineRank none (rows tallPoints) = .ok 3 := by
    refine affineRank_full (a := 2) (b := 256 / 3) (by simp [tallPoints]) (fun x _ => ?_) (fun x => ?_) ?_
    · rw [hs, norm_sq3]; nlinarith [sq_nonneg (x 0), sq_nonneg (x 1), sq_nonneg (x 2)]
    · rw [hs, norm_sq3]; nlinarith [sq_nonneg (x 0), sq_nonneg (x 1), sq_nonneg (x 2)]
    · simp [tallPoints]
      norm_num
  simp [Pts.areCoplanar, hr]

/-- C55, defect: the cylinder can be too short.  The points lie on the unit cylinder around the z axis, at heights 0
to 8, and pass all checks; if the direction of the result is `+z` (the true axis), its length is 16/3 and the point
`(1, 0, 8)` of the input is outside it. -/
theorem C55_length_defect {C : Cylinder ℝ} (hfit : Cylinder.bestFit (rows tallPoints) = .ok C) {p : E 3} {L r : ℝ}
    (hC : Cylinder.new (arr p) (arr (L • vec3 0 0 1)) r = .ok C) (hL : 0 < L) :
    (∀ x ∈ tallPoints, x ∈ infCyl (vec3 0 0 0) (vec3 0 0 1) 1) ∧ vec3 1 0 8 ∈ tallPoints ∧
    L = 16 / 3 ∧ C.isPointWithin (arr (vec3 1 0 8)) = .ok false := by
  have hlen : 6 ≤ tallPoints.length := le_refl _
  obtain ⟨C', p', w, g, L', r', f, x0, h1, h2, h3, hw, hL', hr', -, -, -, -, -, hlow, ⟨xm, hxm, hxm0⟩, hLg, -⟩ :=
    C55_best_fit hlen tallPoints_accepted
  rw [hfit] at h1
  obtain rfl := Except.ok.inj h1
  have hC2 := hC
  obtain ⟨ha, hr, rfl⟩ := Cylinder.new_ok hC
  obtain ⟨-, -, e⟩ := Cylinder.new_ok h2
  rw [Cylinder.mk.injEq, arr_inj, arr_inj] at e
  obtain ⟨rfl, e, rfl⟩ := e
  have hz : ‖vec3 0 0 1‖ = 1 := by
    have : ‖vec3 0 0 1‖ ^ 2 = 1 := by rw [norm_sq3]; simp only [vec3_0, vec3_1, vec3_2]; norm_num
    nlinarith [norm_nonneg (vec3 0 0 1)]
  have hLL : L = L' := by
    have := congrArg norm e
    rwa [norm_smul, norm_smul, hz, hw, Real.norm_eq_abs, Real.norm_eq_abs, abs_of_pos hL, abs_of_pos hL', mul_one,
      mul_one] at this
  subst hLL
  have hwz : w = vec3 0 0 1 := (smul_right_injective _ hL.ne' e).symm
  subst hwz
  have hin : ∀ x : E 3, (inner ℝ (x - p) (vec3 0 0 1) : ℝ) = x 2 - p 2 := by
    intro x; rw [inner3]; simp only [vec3_0, vec3_1, vec3_2, PiLp.sub_apply]; ring
  have hp2 : p 2 = 0 := by
    have hl := hlow (vec3 1 0 0) (by simp [tallPoints])
    rw [hin, vec3_2] at hl
    rw [hin] at hxm0
    simp only [tallPoints, List.mem_cons, List.not_mem_nil, or_false] at hxm
    rcases hxm with rfl | rfl | rfl | rfl | rfl | rfl <;> rw [vec3_2] at hxm0 <;> linarith
  have hg : g 2 = 8 / 3 := by
    rw [centroid_rows (by simp [tallPoints])] at h3
    obtain rfl : centroidE tallPoints = g := by simpa using h3
    simp [centroidE, tallPoints, vec3]
    norm_num
  have hL3 : L = 16 / 3 := by rw [hLg, hin, hg, hp2]; norm_num
  refine ⟨tallPoints_on, by simp [tallPoints], hL3, ?_⟩
  have hnorm : ‖L • vec3 0 0 1‖ = L := by rw [norm_smul, hz, Real.norm_eq_abs, abs_of_pos hL, mul_one]
  rw [C50_is_point_within hC2, Except.ok.injEq, decide_eq_false_iff_not, mem_solidCyl ha hr, psignedE, hnorm, smul_smul,
    inv_mul_cancel₀ hL.ne', one_smul, hin, vec3_2, hp2, hL3]
  rintro ⟨-, h, -⟩
  norm_num at h

/-- The hypotheses of `C55_best_fit` and `C55_exact_data` are met by `tallPoints`. -/
example : 6 ≤ tallPoints.length ∧ Pts.areCoplanar none (rows tallPoints) = .ok false ∧
    (∀ x ∈ tallPoints, x ∈ infCyl (vec3 0 0 0) (vec3 0 0 1) 1) :=
  ⟨le_refl _, tallPoints_accepted, tallPoints_on⟩

end

/-- C55: the defect occurs with external routines that meet their contract and an optimiser that returns a global
minimum (it answers the true direction `+z`): the result does not contain its own input. -/
theorem C55_length_defect_occurs : ∃ inst : NumpyExt ℝ, @LawfulNumpy inst ∧
    (∀ f x0, inst.minimizePowell f x0 = (0, 0)) ∧
    ∃ C, @Cylinder.bestFit ℝ _ inst (rows tallPoints) = .ok C ∧
      (∃ x ∈ tallPoints, C.isPointWithin (arr x) = .ok false) ∧
      (∀ x ∈ tallPoints, x ∈ infCyl (vec3 0 0 0) (vec3 0 0 1) 1) := by
  letI := realNumpy fun _ _ => (0, 0)
  haveI := realNumpy_lawful fun _ _ => (0, 0)
  refine ⟨_, this, fun _ _ => rfl, ?_⟩
  obtain ⟨C, p, w, g, L, r, f, x0, h1, h2, -, -, hL, -, hw, -⟩ :=
    C55_best_fit (P := tallPoints) (le_refl _) tallPoints_accepted
  have hwz : w = vec3 0 0 1 := by
    rw [hw]
    show sphereDir 0 0 = _
    simp [sphereDir]
  rw [hwz] at h2
  obtain ⟨a, b, -, d⟩ := C55_length_defect h1 h2 hL
  exact ⟨C, h1, ⟨_, b, d⟩, a⟩


/-! ### Spherical coordinates -/

theorem close_spherical_zero (x : ℝ) : Close Cylinder.tolSpherical x 0 ↔ |x| ≤ 1 / 1000000000 := by
  have e1 : (Cylinder.tolSpherical : Tol ℝ).rel = 1 / 1000000000 := by simp [Cylinder.tolSpherical, Tol.default]
  have e2 : (Cylinder.tolSpherical : Tol ℝ).abs = 1 / 1000000000 := by simp [Cylinder.tolSpherical]
  rw [Close, e1, e2]
  have h0 := abs_nonneg x
  simp only [sub_zero, abs_zero, max_eq_left h0]
  constructor
  · rintro h
    rcases le_max_iff.mp h with h | h
    · have : |x| = 0 := by linarith
      rw [this]; norm_num
    · exact h
  · intro h; exact le_max_of_le_right h

theorem cartesianToSpherical_eq (x y z : ℝ) (hp : ¬ (|x| ≤ 1 / 1000000000 ∧ |y| ≤ 1 / 1000000000)) :
    Cylinder.cartesianToSpherical x y z = .ok (Real.arccos (z / Real.sqrt (x ^ 2 + y ^ 2 + z ^ 2)),
      signNum y * Real.arccos (x / Real.sqrt (x ^ 2 + y ^ 2))) := by
  have ht : (Cylinder.tolSpherical : Tol ℝ).Nonneg := by
    constructor
    · exact Tol.default_nonneg.1
    · simp [Cylinder.tolSpherical]
  rw [← close_spherical_zero, ← close_spherical_zero] at hp
  simp only [Cylinder.cartesianToSpherical, isclose_eq ht, ok_bind, zero_real]
  by_cases hx : Close Cylinder.tolSpherical x 0
  · have hy : ¬ Close Cylinder.tolSpherical y 0 := fun h => hp ⟨hx, h⟩
    simp [hx, hy]
  · simp [hx]

/-- C55: the initial direction handed to the optimiser is right away from the half plane `y = 0, x < 0`: the
conversion to spherical coordinates and back is the identity there (except within `1e-9` of the poles). -/
theorem C55_spherical_round_trip {w : E 3} (hw : ‖w‖ = 1) (hp : ¬ (|w 0| ≤ 1 / 1000000000 ∧ |w 1| ≤ 1 / 1000000000))
    (hq : w 1 ≠ 0 ∨ 0 < w 0) :
    ∃ th ph, Cylinder.cartesianToSpherical (w 0) (w 1) (w 2) = .ok (th, ph) ∧ sphereDir th ph = w := by
  have hn := unit3 hw
  refine ⟨_, _, cartesianToSpherical_eq _ _ _ hp, ?_⟩
  obtain ⟨x, hx⟩ : ∃ x, x = w 0 := ⟨_, rfl⟩
  obtain ⟨y, hy⟩ : ∃ y, y = w 1 := ⟨_, rfl⟩
  obtain ⟨z, hz⟩ : ∃ z, z = w 2 := ⟨_, rfl⟩
  rw [← hx, ← hy, ← hz] at hn ⊢
  rw [← hx, ← hy] at hq
  have hρ : 0 < x ^ 2 + y ^ 2 := by
    rcases hq with h | h
    · have := mul_self_pos.mpr h; nlinarith [mul_self_nonneg x]
    · nlinarith [mul_self_nonneg y]
  obtain ⟨ρ, hρd⟩ : ∃ ρ, ρ = Real.sqrt (x ^ 2 + y ^ 2) := ⟨_, rfl⟩
  have hρ0 : 0 < ρ := by rw [hρd]; exact Real.sqrt_pos.mpr hρ
  have hρ2 : ρ ^ 2 = x ^ 2 + y ^ 2 := by rw [hρd]; exact Real.sq_sqrt hρ.le
  have h1 : x ^ 2 + y ^ 2 + z ^ 2 = 1 := by linarith
  rw [h1, Real.sqrt_one, div_one, ← hρd]
  have hz1 : -1 ≤ z ∧ z ≤ 1 := by constructor <;> nlinarith
  have hx1 : -1 ≤ x / ρ ∧ x / ρ ≤ 1 := by
    have := abs_le.mp (abs_le_of_sq_le_sq (a := x) (b := ρ) (by nlinarith [sq_nonneg y]) hρ0.le)
    constructor
    · rw [le_div_iff₀ hρ0]; linarith
    · rw [div_le_one hρ0]; linarith
  have hsin : Real.sin (Real.arccos z) = ρ := by
    rw [Real.sin_arccos, hρd]; congr 1; linarith
  have hsph : Real.sin (Real.arccos (x / ρ)) = |y| / ρ := by
    rw [Real.sin_arccos, ← Real.sqrt_sq hρ0.le, ← Real.sqrt_sq_eq_abs, ← Real.sqrt_div (sq_nonneg y), Real.sqrt_sq hρ0.le]
    congr 1
    field_simp
    linarith
  have hcos : Real.cos (signNum y * Real.arccos (x / ρ)) = x / ρ ∧ Real.sin (signNum y * Real.arccos (x / ρ)) = y / ρ := by
    rcases lt_trichotomy y 0 with h | h | h
    · have : signNum y = -1 := by simp [signNum, h, h.le, not_lt.mpr h.le]
      rw [this, neg_one_mul, Real.cos_neg, Real.sin_neg, Real.cos_arccos hx1.1 hx1.2, hsph, abs_of_neg h]
      exact ⟨rfl, by ring⟩
    · have h0 : signNum y = 0 := by rw [h]; simp [signNum]
      have hxp : 0 < x := by rcases hq with h' | h'; exact absurd h h'; exact h'
      have : x = ρ := by
        rw [hρd, h]; simp [Real.sqrt_sq hxp.le]
      rw [h0, h, zero_mul, Real.cos_zero, Real.sin_zero, ← this]
      exact ⟨(div_self hxp.ne').symm, by simp⟩
    · have : signNum y = 1 := by simp [signNum, h, h.le, not_lt.mpr h.le]
      rw [this, one_mul, Real.cos_arccos hx1.1 hx1.2, hsph, abs_of_pos h]
      exact ⟨rfl, rfl⟩
  have e : w = vec3 x y z := by ext i; fin_cases i <;> simp [vec3, hx, hy, hz]
  rw [e, sphereDir, hcos.1, hcos.2, hsin, Real.cos_arccos hz1.1 hz1.2, div_mul_cancel₀ _ hρ0.ne', div_mul_cancel₀ _ hρ0.ne']

/-- C55, defect: on the half plane `y = 0, x < 0` the sign function is zero and the conversion mirrors the direction,
so that the optimiser starts from `(-x, 0, z)` instead of `(x, 0, z)`. -/
theorem C55_spherical_defect {w : E 3} (hw : ‖w‖ = 1) (hx : w 0 < -(1 / 1000000000)) (hy : w 1 = 0) :
    ∃ th ph, Cylinder.cartesianToSpherical (w 0) (w 1) (w 2) = .ok (th, ph) ∧ sphereDir th ph = vec3 (-(w 0)) 0 (w 2) ∧
      sphereDir th ph ≠ w := by
  have hn := unit3 hw
  have hp : ¬ (|w 0| ≤ 1 / 1000000000 ∧ |w 1| ≤ 1 / 1000000000) := by
    rintro ⟨h, -⟩
    have := (abs_le.mp h).1
    linarith
  have hx0 : w 0 < 0 := by linarith
  have hdir : sphereDir (Real.arccos (w 2 / Real.sqrt (w 0 ^ 2 + w 1 ^ 2 + w 2 ^ 2)))
      (signNum (w 1) * Real.arccos (w 0 / Real.sqrt (w 0 ^ 2 + w 1 ^ 2))) = vec3 (-(w 0)) 0 (w 2) := by
    have h1 : w 0 ^ 2 + w 1 ^ 2 + w 2 ^ 2 = 1 := by linarith
    have h0 : signNum (w 1) = 0 := by rw [hy]; simp [signNum]
    have hz1 : -1 ≤ w 2 ∧ w 2 ≤ 1 := by constructor <;> nlinarith [mul_self_nonneg (w 0)]
    have hsin : Real.sin (Real.arccos (w 2)) = -(w 0) := by
      rw [Real.sin_arccos]
      have : 1 - w 2 ^ 2 = (-(w 0)) ^ 2 := by rw [hy] at h1; linarith
      rw [this, Real.sqrt_sq (by linarith)]
    rw [h1, Real.sqrt_one, div_one, h0, zero_mul, sphereDir, Real.cos_zero, Real.sin_zero, hsin,
      Real.cos_arccos hz1.1 hz1.2, one_mul, zero_mul]
  refine ⟨_, _, cartesianToSpherical_eq _ _ _ hp, hdir, ?_⟩
  rw [hdir]
  intro h
  have := congrFun (congrArg WithLp.ofLp h) 0
  rw [show (vec3 (-(w 0)) 0 (w 2)).ofLp 0 = -(w 0) from vec3_0 _ _ _] at this
  linarith

/-- Directions of both kinds exist. -/
example : ‖vec3 (-1) 0 0‖ = 1 ∧ (vec3 (-1) 0 0) 0 < -(1 / 1000000000) ∧ (vec3 (-1) 0 0) 1 = 0 ∧
    ‖vec3 1 0 0‖ = 1 ∧ 0 < (vec3 1 0 0) 0 := by
  have h1 : ‖vec3 (-1) 0 0‖ ^ 2 = 1 := by rw [norm_sq3]; simp only [vec3_0, vec3_1, vec3_2]; norm_num
  have h2 : ‖vec3 1 0 0‖ ^ 2 = 1 := by rw [norm_sq3]; simp only [vec3_0, vec3_1, vec3_2]; norm_num
  refine ⟨by nlinarith [norm_nonneg (vec3 (-1) 0 0)], ?_, vec3_1 _ _ _, by nlinarith [norm_nonneg (vec3 1 0 0)], ?_⟩
  · rw [vec3_0]; norm_num
  · rw [vec3_0]; norm_num

end SkSpatial
