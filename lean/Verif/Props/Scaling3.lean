import Verif.Props.Scaling
/-! # C104: areas and volumes of circles, spheres and cylinders; centred points -/

namespace SkSpatial
open Scaling StdRounding

variable {A : Arith} {n : ℕ}

/-- C104: lengths scale by `2^k`, areas by `2^2k`, volumes by `2^3k`, bit for bit. -/
theorem C104_measures (hA : A.ExactScaling) (s : Fin 3 → Bool) (s' : Fin 2 → Bool) (k : ℤ) (c p v : E 3) (c' : E 2) (r : ℝ) :
    SameOutcome (fun C C' => Times k (@Circle.circumference ℝ (rounded A) C) (@Circle.circumference ℝ (rounded A) C') ∧
        Times (2 * k) (@Circle.area ℝ (rounded A) C) (@Circle.area ℝ (rounded A) C'))
      (@Circle.new ℝ (rounded A) (arr c') r) (@Circle.new ℝ (rounded A) (arr (rescale s' k c')) (2 ^ k * r)) ∧
    SameOutcome (fun C C' => Times (2 * k) (@Sphere.surfaceArea ℝ (rounded A) C) (@Sphere.surfaceArea ℝ (rounded A) C') ∧
        Times (3 * k) (@Sphere.volume ℝ (rounded A) C) (@Sphere.volume ℝ (rounded A) C'))
      (@Sphere.new ℝ (rounded A) (arr c) r) (@Sphere.new ℝ (rounded A) (arr (rescale s k c)) (2 ^ k * r)) ∧
    SameOutcome (fun C C' => Times (2 * k) (@Cylinder.lateralSurfaceArea ℝ (rounded A) C) (@Cylinder.lateralSurfaceArea ℝ (rounded A) C') ∧
        Times (2 * k) (@Cylinder.surfaceArea ℝ (rounded A) C) (@Cylinder.surfaceArea ℝ (rounded A) C') ∧
        Times (3 * k) (@Cylinder.volume ℝ (rounded A) C) (@Cylinder.volume ℝ (rounded A) C'))
      (@Cylinder.new ℝ (rounded A) (arr p) (arr v) r)
      (@Cylinder.new ℝ (rounded A) (arr (rescale s k p)) (arr (rescale s k v)) (2 ^ k * r)) := by
  have hs := sgn_sg hA s
  have h1 := sc_one hA
  have hk := sc_pow hA k
  have hkk := hk.mul hk
  have pk : (0 : ℝ) < 2 ^ k := by positivity
  have e2 : (2 : ℝ) ^ (2 * k) = 2 ^ k * 2 ^ k := by rw [two_mul, zpow_add₀ two_ne_zero]
  have e3 : (2 : ℝ) ^ (3 * k) = 2 ^ k * 2 ^ k * 2 ^ k := by
    rw [show 3 * k = k + k + k by ring, zpow_add₀ two_ne_zero, zpow_add₀ two_ne_zero]
  simp only [Times, e2, e3]
  refine ⟨so_mono (circleNew_vr pk (vr_rescale s' k c') rfl) fun C C' hC => ⟨?_, ?_⟩,
    so_mono (sphereNew_vr pk (vr_rescale s k c) rfl) fun C C' hC => ⟨?_, ?_⟩,
    so_mono (cylinderNew_vr hs hk pk (vr_rescale s k p) (vr_rescale s k v) rfl) fun C C' hC => ?_⟩
  · exact mul1_sr h1 hk hC.2
  · exact mul1_sr h1 hkk (sq_sr hk hC.2)
  · exact mul1_sr h1 hkk (sq_sr hk hC.2)
  · exact mul1_sr h1 (hkk.mul hk) (mul_sr hkk hk (mul_sr hk hk hC.2 hC.2) hC.2)
  · have hl := length_vr hs hk pk hC
    have hlat : SR _ (@Cylinder.lateralSurfaceArea ℝ (rounded A) C) (@Cylinder.lateralSurfaceArea ℝ (rounded A) C') :=
      mul_sr hk hk (mul1_sr h1 hk hC.2.2) hl
    exact ⟨hlat, add_sr hkk hlat (mul1_sr h1 hkk (sq_sr hk hC.2.2)), mul_sr hkk hk (mul1_sr h1 hkk (sq_sr hk hC.2.2)) hl⟩

/-- C104: `Points.mean_center`. -/
theorem C104_mean_center (hA : A.ExactScaling) (s : Fin n → Bool) (k : ℤ) (X : List (E n)) (hX : X ≠ []) :
    SameOutcome (fun a b => List.Forall₂ (Rescaled s k) a.1 b.1 ∧ Rescaled s k a.2 b.2)
      (@Pts.meanCenter ℝ (rounded A) (rows X)) (@Pts.meanCenter ℝ (rounded A) (rows (X.map (rescale s k)))) := by
  have hs := sgn_sg hA s
  have h1 := sc_one hA
  have hk := sc_pow hA k
  refine so_bind (centroid_vr h1 hs hk (rows_rescale s k X) (by simpa [rows] using hX)) fun c c' hc =>
    so_bind (so_mapM (rows_rescale s k X) fun x y h => vsub_vr hs hk h hc) fun l m hlm =>
      so_ok ⟨hlm.imp fun a b h => (vr_iff s k _ _).mp h, (vr_iff s k _ _).mp hc⟩

/-- A sphere of radius 1/10 and one of twice that radius, in binary64. -/
example : ∃ S S' : Sphere ℝ, @Sphere.new ℝ (rounded (leftToRight (roundNearest 53))) (arr (vec3 1 2 3)) (1 / 10) = .ok S ∧
    @Sphere.new ℝ (rounded (leftToRight (roundNearest 53))) (arr (rescale (fun _ => false) 1 (vec3 1 2 3))) (2 ^ (1 : ℤ) * (1 / 10)) = .ok S' ∧
    Times 3 (@Sphere.volume ℝ (rounded (leftToRight (roundNearest 53))) S) (@Sphere.volume ℝ (rounded (leftToRight (roundNearest 53))) S') := by
  have h := (C104_measures (C104_arithmetic 53) (fun _ => false) (fun _ => false) 1 (vec3 1 2 3) 0 0 0 (1 / 10)).2.1
  have h1 : @Sphere.new ℝ (rounded (leftToRight (roundNearest 53))) (arr (vec3 1 2 3)) (1 / 10) = .ok ⟨arr (vec3 1 2 3), 1 / 10⟩ := by
    simp [Sphere.new, newBaseSphere, new1D_rd, le_rd, zero_rd, show ¬ (10 : ℝ) ≤ 0 by norm_num]
  rw [h1] at h
  revert h
  cases h2 : @Sphere.new ℝ (rounded (leftToRight (roundNearest 53))) (arr (rescale (fun _ => false) 1 (vec3 1 2 3))) (2 ^ (1 : ℤ) * (1 / 10)) with
  | error => intro h; exact h.elim
  | ok S' => intro h; exact ⟨_, _, h1, rfl, h.2⟩

end SkSpatial
