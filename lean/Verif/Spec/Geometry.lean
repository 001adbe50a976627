import Verif.Spec.Space
/-! # Specification vocabulary: derived geometric notions -/

namespace SkSpatial
open scoped ENNReal

variable {n : ℕ}

/-- The distances between a point of one line and a point of the other. -/
def lineDistances (p d q e : E n) : Set ℝ := {r | ∃ x ∈ lineSet p d, ∃ y ∈ lineSet q e, r = dist x y}

/-- The pairs of limits, in the order of the mesh (`lims_y` outermost). -/
def limPairs (lx ly : List ℝ) : List (ℝ × ℝ) := ly.flatMap fun y => lx.map fun x => (x, y)

/-- `x` is in the plane (2-dimensional affine subspace) of the points `a`, `b`, `c`. -/
def InPlaneOf {n : ℕ} (a b c x : E n) : Prop := ∃ u v w : ℝ, u + v + w = 1 ∧ x = u • a + v • b + w • c

/-- The unit vector with the spherical coordinates `th` (from the z axis) and `ph` (around it). -/
noncomputable def sphereDir (th ph : ℝ) : E 3 :=
  vec3 (Real.cos ph * Real.sin th) (Real.sin ph * Real.sin th) (Real.cos th)

/-- The spread of a finite set of points about its centroid in the direction `x`. -/
noncomputable def spread (S : Finset (E n)) (x : E n) : ℝ :=
  ∑ q ∈ S, (inner ℝ (q - (S.card : ℝ)⁻¹ • ∑ p ∈ S, p) x : ℝ) ^ 2

/-- The row of the linear system of a point: the linear form `(c, k) ↦ 2⟨p, c⟩ + k`. -/
noncomputable def designRow (p : E n) : E (n + 1) :=
  WithLp.toLp 2 (Fin.snoc (fun i => 2 * p i) 1 : Fin (n + 1) → ℝ)

/-- The linear system of the points is well conditioned: `np.linalg.lstsq` (with `rcond=None`) cuts off no
singular value.  In the directions `x` and `y` the stretching differs by less than the factor
`2⁵² / max(M, N)`. -/
def WellConditioned (P : List (E n)) : Prop :=
  ∀ x y : E (n + 1), ‖x‖ = 1 → ‖y‖ = 1 →
    ((2 : ℝ)⁻¹ ^ 52 * (max P.length (n + 1) : ℕ)) ^ 2 * (P.map fun p => (inner ℝ (designRow p) y : ℝ) ^ 2).sum <
      (P.map fun p => (inner ℝ (designRow p) x : ℝ) ^ 2).sum

/-- Sixteen times the squared area of the triangle, from its side lengths (Heron). -/
noncomputable def heron16 (a b c : E n) : ℝ :=
  2 * (dist a b ^ 2 * dist b c ^ 2 + dist b c ^ 2 * dist c a ^ 2 + dist c a ^ 2 * dist a b ^ 2) -
        (dist a b ^ 2) ^ 2 - (dist b c ^ 2) ^ 2 - (dist c a ^ 2) ^ 2

/-- The relative tolerance of `matrix_rank` for three distinct points. -/
noncomputable def rankEps (n : ℕ) : ℝ := (max 3 n : ℕ) * (2 : ℝ)⁻¹ ^ 52

/-- The vector `x` seen as an element of `ℓᵖ`. -/
noncomputable def asLp (p : ℝ≥0∞) (x : E n) : PiLp p (fun _ : Fin n => ℝ) := WithLp.toLp p fun i => x i

end SkSpatial
