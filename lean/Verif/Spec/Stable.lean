import Verif.Spec.Numpy
/-!
# Specification vocabulary: backward stable linear algebra

`LawfulNumpy` is the contract of the external routines in exact arithmetic.  LAPACK guarantees less: the computed singular
values are the exact ones of a nearby matrix ("LAPACK Users' Guide", §4.9: `A + E` with `‖E‖ ≤ p(m, n) · eps · ‖A‖`).
`StableNumpy η` is this weaker contract for `svd` and `matrix_rank`, the relative size of the perturbation being `η`.
With `η = 0` it is the exact contract (`StableNumpy.of_lawful`).
-/

namespace SkSpatial

/-- The Frobenius norm of the matrix with the rows `A`: the root of the sum of the squares of all entries. -/
noncomputable def frob {n : ℕ} (A : List (E n)) : ℝ := √(A.map fun x => ‖x‖ ^ 2).sum

/-- The triple `(U, S, Vh)` is a backward stable singular value decomposition of the matrix with rows `A`: with the columns
`W' l` of `U` and the rows `V' l` of `Vh` replaced by orthonormal vectors `W l`, `V l` within `η`, it is an exact one of a
matrix `A'` with `‖A' - A‖ ≤ η ‖A‖` (compare `IsSVD`). -/
def IsStableSVD {n : ℕ} (η : ℝ) (A : List (E n)) (full : Bool) (usv : List (List ℝ) × List ℝ × List (List ℝ)) : Prop :=
  ∃ (A' : List (E n)) (W W' : ℕ → E A'.length) (σ : ℕ → ℝ) (V V' : ℕ → E n),
    A'.length = A.length ∧ frob (List.zipWith (· - ·) A' A) ≤ η * frob A ∧
    Orthonormal ℝ (fun l : Fin (if full then A'.length else min A'.length n) => W l) ∧
    Orthonormal ℝ (fun l : Fin (if full then n else min A'.length n) => V l) ∧
    (∀ l, 0 ≤ σ l) ∧ Antitone σ ∧
    (∀ i : Fin A'.length, A'.get i = ∑ l ∈ Finset.range (min A'.length n), (σ l * W l i) • V l) ∧
    (∀ l, ‖W' l - W l‖ ≤ η) ∧ (∀ l, ‖V' l - V l‖ ≤ η) ∧
    usv.1 = (List.ofFn fun i : Fin A'.length =>
      (List.range (if full then A'.length else min A'.length n)).map fun l => W' l i) ∧
    usv.2.1 = (List.range (min A'.length n)).map σ ∧
    usv.2.2 = (List.range (if full then n else min A'.length n)).map fun l => arr (V' l)

open Classical in
/-- `matrix_rank` counts the singular values of a matrix `A'` near `A` which are above the tolerance; NumPy's default
tolerance is itself computed with a relative error of at most `η`.  `svd` is backward stable. -/
class StableNumpy (η : ℝ) [NumpyExt ℝ] : Prop where
  nonneg : 0 ≤ η
  lt_one : η < 1
  svd : ∀ {n : ℕ} (A : List (E n)) (full : Bool), A ≠ [] → n ≠ 0 → IsStableSVD η A full (NumpyExt.svd full (rows A))
  matrixRank : ∀ {n : ℕ} (A : List (E n)) (tol : Option ℝ), A ≠ [] → n ≠ 0 →
    ∃ (A' : List (E n)) (usv : List (List ℝ) × List ℝ × List (List ℝ)) (t : ℝ),
      A'.length = A.length ∧ frob (List.zipWith (· - ·) A' A) ≤ η * frob A ∧ IsSVD A' false usv ∧
      (match tol with
        | some s => t = s
        | none => |t - rankTol A.length n usv.2.1| ≤ η * rankTol A.length n usv.2.1) ∧
      NumpyExt.matrixRank tol (rows A) = usv.2.1.countP fun s => decide (t < s)

/-- `np.linalg.solve` is backward stable: if all matrices `A'` with `‖A' - A‖ ≤ η ‖A‖` (Frobenius norms) are invertible, it returns
the exact solution for one of them.  (Gaussian elimination with partial pivoting: Higham, "Accuracy and Stability of Numerical
Algorithms", §9.3.) -/
class StableSolve (η : ℝ) [NumpyExt ℝ] : Prop where
  nonneg : 0 ≤ η
  solve : ∀ {n : ℕ} (A : Fin n → E n) (b : E n),
    (∀ A' : Fin n → E n, frob (List.ofFn fun i => A' i - A i) ≤ η * frob (List.ofFn A) →
      ∀ x : E n, (∀ i, inner ℝ (A' i) x = (0 : ℝ)) → x = 0) →
    ∃ (A' : Fin n → E n) (x : E n), frob (List.ofFn fun i => A' i - A i) ≤ η * frob (List.ofFn A) ∧
      (∀ i, inner ℝ (A' i) x = b i) ∧ NumpyExt.solve (rows (List.ofFn A)) (arr b) = .ok (arr x)

/-- The root of the sum of the squared distances of the points from a line, and from a plane. -/
noncomputable def lineFit {n : ℕ} (P : List (E n)) (q d : E n) : ℝ := √(P.map fun x => Metric.infDist x (lineSet q d) ^ 2).sum
noncomputable def planeFit {n : ℕ} (P : List (E n)) (q m : E n) : ℝ := √(P.map fun x => Metric.infDist x (planeSet q m) ^ 2).sum

/-- The bound on the combined effect of rounding and of the perturbation inside `svd` on the fit of the points `P`. -/
noncomputable def fitNoise {n : ℕ} (u η : ℝ) (P : List (E n)) : ℝ := ((1 + η) * ((1 - u) ^ (P.length + 2))⁻¹ - 1) * frob P

/-- The root of the sum of the squared distances of the points from the origin. -/
noncomputable def momentNorm {n : ℕ} (S : Finset (E n)) : ℝ := √(∑ q ∈ S, ‖q‖ ^ 2)

/-- The bound on the combined effect of rounding (`u`, unit roundoff) and of the perturbation (`η`) inside `matrix_rank` on
the spread of the distinct points `S` in any unit direction. -/
noncomputable def rankNoise {n : ℕ} (u η : ℝ) (S : Finset (E n)) : ℝ :=
  ((1 + η) * ((1 - u) ^ (S.card + 2))⁻¹ - 1) * momentNorm S

/-- The same bound for `line.is_coplanar`, whose four points `p`, `p + d`, `q`, `q + e` are themselves rounded. -/
noncomputable def coplanarNoise {n : ℕ} (u η : ℝ) (p d q e : E n) : ℝ :=
  ((1 + η) * ((1 - u) ^ 7)⁻¹ - 1) * √(‖p‖ ^ 2 + ‖p + d‖ ^ 2 + ‖q‖ ^ 2 + ‖q + e‖ ^ 2)

open Classical in
/-- The distance at which `Triangle` tells three points from collinear ones: `2 · ((1+η)(M+e) · max(3, n) · 2⁻⁵² + e)`, with the
noise `e` and the root `M` of the sum of the squared distances of the vertices from the origin. -/
noncomputable def triangleNoise {n : ℕ} (u η : ℝ) (a b c : E n) : ℝ :=
  2 * ((1 + η) * (momentNorm {a, b, c} + rankNoise u η {a, b, c}) * (max 3 n : ℕ) * (2 : ℝ)⁻¹ ^ 52 + rankNoise u η {a, b, c})

end SkSpatial
