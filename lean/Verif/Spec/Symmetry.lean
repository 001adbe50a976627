import Verif.Spec.Space
import Verif.Spec.Close
import Verif.Model.Objects
/-!
# Specification vocabulary: similarities of space

A similarity rotates or reflects (`U`, any linear isometry), scales by a factor `c > 0` and shifts by `t`.
Points move by `x ↦ c • U x + t`; vectors (directions, normals) by `v ↦ c • U v`.
-/

namespace SkSpatial

/-- A similarity of Euclidean `n`-space. -/
structure Similarity (n : ℕ) where
  /-- the rotation or reflection -/
  U : E n ≃ₗᵢ[ℝ] E n
  /-- the scale factor -/
  c : ℝ
  pos : 0 < c
  /-- the shift -/
  t : E n

namespace Similarity
variable {n : ℕ}

/-- Where a point goes. -/
noncomputable def pt (φ : Similarity n) (x : E n) : E n := φ.c • φ.U x + φ.t

/-- Where a vector (a difference of points) goes. -/
noncomputable def vec (φ : Similarity n) (v : E n) : E n := φ.c • φ.U v

/-- `1` if the similarity preserves orientation (a rotation), `-1` if it reverses it (a reflection). -/
noncomputable def orient (φ : Similarity n) : ℝ := LinearMap.det (φ.U.toLinearEquiv : E n →ₗ[ℝ] E n)

end Similarity

/-- Two calls have corresponding outcomes: both return, with related results, or both raise `ValueError`. -/
def Corresponds {α β : Type} (R : α → β → Prop) (a : Res α) (b : Res β) : Prop :=
  (∃ x y, a = .ok x ∧ b = .ok y ∧ R x y) ∨
    ((∃ msg, a = .error (.valueError msg)) ∧ ∃ msg, b = .error (.valueError msg))

/-- The second array is the first one moved by the similarity. -/
def Similarity.Moved {n : ℕ} (φ : Similarity n) (l m : List ℝ) : Prop :=
  ∃ x : E n, l = arr x ∧ m = arr (φ.pt x)

/-- The second line is the first one moved by the similarity (point and direction). -/
def Similarity.MovedLine {n : ℕ} (φ : Similarity n) (L M : Line ℝ) : Prop :=
  ∃ p d : E n, L = ⟨arr p, arr d⟩ ∧ M = ⟨arr (φ.pt p), arr (φ.vec d)⟩

/-- The set of points of the second line is that of the first one moved by the similarity. -/
def Similarity.MovedLineSet {n : ℕ} (φ : Similarity n) (L M : Line ℝ) : Prop :=
  ∃ p d q e : E n, L = ⟨arr p, arr d⟩ ∧ M = ⟨arr q, arr e⟩ ∧ lineSet q e = φ.pt '' lineSet p d

/-- The two points of the second pair are those of the first pair, moved by the similarity, in some order. -/
def Similarity.MovedPair {n : ℕ} (φ : Similarity n) (l m : List ℝ × List ℝ) : Prop :=
  ∃ x y : E n, l = (arr x, arr y) ∧ (m = (arr (φ.pt x), arr (φ.pt y)) ∨ m = (arr (φ.pt y), arr (φ.pt x)))

/-- Two `Line` objects describe the same set of points. -/
def SameLine (L M : Line ℝ) : Prop :=
  ∃ (n : ℕ) (p d q e : E n), L = ⟨arr p, arr d⟩ ∧ M = ⟨arr q, arr e⟩ ∧ lineSet p d = lineSet q e

/-- The tolerances with `abs_tol` scaled by `k`: for comparing quantities that scale by `k`. -/
noncomputable def Tol.scale (k : ℝ) (tol : Tol ℝ) : Tol ℝ := ⟨tol.rel, k * tol.abs⟩

end SkSpatial
