import Verif.Spec.Space
import Verif.Model.Numpy
/-!
# The contract of the external linear algebra routines

What the theorems assume about `np.linalg.svd`, `matrix_rank`, `solve`, `lstsq`: their documented
meaning in exact arithmetic.  `Lemmas/Svd.lean` proves that the contract can be met
(`exists_lawfulNumpy`), so the assumption is consistent.  About `scipy.optimize.minimize` nothing is
assumed.
-/

namespace SkSpatial

/-- The triple `(U, S, Vh)` is a singular value decomposition of the matrix with rows `A`, in the shape
of `np.linalg.svd(A, full_matrices=full)`: with `k = min(M, N)`, the columns `W l` of `U` and the rows
`V l` of `Vh` are orthonormal, `S` is non-negative and non-increasing, and `A = U[:, :k] diag(S) Vh[:k]`. -/
def IsSVD {n : ℕ} (A : List (E n)) (full : Bool)
    (usv : List (List ℝ) × List ℝ × List (List ℝ)) : Prop :=
  ∃ (W : ℕ → E A.length) (σ : ℕ → ℝ) (V : ℕ → E n),
    Orthonormal ℝ (fun l : Fin (if full then A.length else min A.length n) => W l) ∧
    Orthonormal ℝ (fun l : Fin (if full then n else min A.length n) => V l) ∧
    (∀ l, 0 ≤ σ l) ∧ Antitone σ ∧
    (∀ i : Fin A.length, A.get i =
      ∑ l ∈ Finset.range (min A.length n), (σ l * W l i) • V l) ∧
    usv.1 = (List.ofFn fun i : Fin A.length =>
      (List.range (if full then A.length else min A.length n)).map fun l => W l i) ∧
    usv.2.1 = (List.range (min A.length n)).map σ ∧
    usv.2.2 = (List.range (if full then n else min A.length n)).map fun l => arr (V l)

/-- NumPy's default tolerance of `matrix_rank`: `S.max() * max(M, N) * eps`, `eps = 2⁻⁵²`. -/
noncomputable def rankTol (M N : ℕ) (S : List ℝ) : ℝ := S.headD 0 * (max M N : ℕ) * (2 : ℝ)⁻¹ ^ 52

open Classical in
/-- The contract, for the exact reals. -/
class LawfulNumpy [NumpyExt ℝ] : Prop where
  /-- `np.linalg.svd`. -/
  svd : ∀ {n : ℕ} (A : List (E n)) (full : Bool), A ≠ [] → n ≠ 0 →
    IsSVD A full (NumpyExt.svd full (rows A))
  /-- `np.linalg.matrix_rank`: the number of singular values above the tolerance. -/
  matrixRank : ∀ {n : ℕ} (A : List (E n)) (tol : Option ℝ), A ≠ [] → n ≠ 0 →
    ∃ usv, IsSVD A false usv ∧
      NumpyExt.matrixRank tol (rows A) =
        usv.2.1.countP fun s => decide (tol.getD (rankTol A.length n usv.2.1) < s)
  /-- `np.linalg.solve`: the solution of a non-singular system. -/
  solve : ∀ {n : ℕ} (A : List (E n)) (b x : E n), (hA : A.length = n) →
    LinearIndependent ℝ A.get → (∀ i : Fin n, inner ℝ (A.get (i.cast hA.symm)) x = b i) →
    NumpyExt.solve (rows A) (arr b) = .ok (arr x)
  /-- `np.linalg.solve` of a singular matrix. -/
  solve_singular : ∀ {n : ℕ} (A : List (E n)) (b : E n), A.length = n →
    ¬ LinearIndependent ℝ A.get →
    NumpyExt.solve (rows A) (arr b) = .error (.linAlgError "Singular matrix")
  /-- `np.linalg.lstsq(A, b, rcond=None)[0]`: the minimum-norm least-squares solution, singular values
  at most `eps * max(M, N)` times the largest being treated as zero. -/
  lstsq : ∀ {n : ℕ} (A : List (E n)) (b : E A.length), A ≠ [] → n ≠ 0 →
    ∃ (W : ℕ → E A.length) (σ : ℕ → ℝ) (V : ℕ → E n),
      Orthonormal ℝ (fun l : Fin (min A.length n) => W l) ∧
      Orthonormal ℝ (fun l : Fin (min A.length n) => V l) ∧
      (∀ l, 0 ≤ σ l) ∧ Antitone σ ∧
      (∀ i : Fin A.length, A.get i = ∑ l ∈ Finset.range (min A.length n), (σ l * W l i) • V l) ∧
      NumpyExt.lstsq (rows A) (arr b) =
        arr (∑ l ∈ (Finset.range (min A.length n)).filter
          (fun l => (2 : ℝ)⁻¹ ^ 52 * (max A.length n : ℕ) * σ 0 < σ l),
            ((inner ℝ (W l) b : ℝ) / σ l) • V l)

end SkSpatial
