import Verif.Spec.Stable
/-!
# Specification vocabulary: backward stable least squares
-/

namespace SkSpatial

/-- The product of the matrix with the rows `A` and the column `x`. -/
noncomputable def mulE {m n : ℕ} (A : Fin m → E n) (x : E n) : E m := WithLp.toLp 2 fun i => inner ℝ (A i) x

/-- `np.linalg.lstsq(A, b, rcond=None)[0]` is backward stable: if no matrix `A'` with `‖A' - A‖ ≤ η ‖A‖` (Frobenius norms) has a
singular value small enough to be cut off (`eps · max(M, N)` times its norm), the result is an exact least-squares solution for such
an `A'` and a `b'` with `‖b' - b‖ ≤ η ‖b‖`.  (LAPACK Users' Guide, §4.5.1; Higham, "Accuracy and Stability of Numerical
Algorithms", §20.2.) -/
class StableLstsq (η : ℝ) [NumpyExt ℝ] : Prop where
  nonneg : 0 ≤ η
  lstsq : ∀ {m n : ℕ} (A : Fin m → E n) (b : E m), n ≠ 0 →
    (∀ A' : Fin m → E n, frob (List.ofFn fun i => A' i - A i) ≤ η * frob (List.ofFn A) → ∀ v : E n, v ≠ 0 →
      (2 : ℝ)⁻¹ ^ 52 * (max m n : ℕ) * frob (List.ofFn A') * ‖v‖ < ‖mulE A' v‖) →
    ∃ (A' : Fin m → E n) (b' : E m) (x : E n), frob (List.ofFn fun i => A' i - A i) ≤ η * frob (List.ofFn A) ∧
      ‖b' - b‖ ≤ η * ‖b‖ ∧ (∀ y, ‖b' - mulE A' x‖ ≤ ‖b' - mulE A' y‖) ∧
      NumpyExt.lstsq (rows (List.ofFn A)) (arr b) = arr x

/-- The sizes of the linear system which `best_fit` solves for the points `P`: its matrix has the rows `(2p, 1)`, its right-hand side
the entries `|p|²`. -/
noncomputable def fitScale {n : ℕ} (P : List (E n)) : ℝ := √(P.map fun p => 4 * ‖p‖ ^ 2 + 1).sum
noncomputable def fitMoment {n : ℕ} (P : List (E n)) : ℝ := √(P.map fun p => ‖p‖ ^ 4).sum

/-- How far the points are from the circle (sphere) with center `c` and radius `r`, in the sense minimised by `best_fit`. -/
noncomputable def fitResidual {n : ℕ} (P : List (E n)) (c : E n) (r : ℝ) : ℝ := √(P.map fun p => (dist p c ^ 2 - r ^ 2) ^ 2).sum

/-- The bound on the error of the center, for a relative perturbation `τ` of the system and its smallest singular value `σ`. -/
noncomputable def fitShift {n : ℕ} (τ σ : ℝ) (P : List (E n)) (c : E n) (r : ℝ) : ℝ :=
  2 * τ / σ * (fitScale P * (2 * fitResidual P c r / σ + √(‖c‖ ^ 2 + (r ^ 2 - ‖c‖ ^ 2) ^ 2)) + fitMoment P)

/-- The bound on the error of the squared radius, for the error `Z` of the center. -/
noncomputable def fitShiftSq {n : ℕ} (u Z : ℝ) (c : E n) (r : ℝ) : ℝ :=
  Z * (1 + 2 * ‖c‖ + Z) + 10 * u * (|r ^ 2 - ‖c‖ ^ 2| + Z + (‖c‖ + Z) ^ 2)

end SkSpatial
