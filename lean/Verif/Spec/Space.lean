import Mathlib.Analysis.InnerProductSpace.PiL2
import Verif.Model.Array
/-!
# Specification vocabulary: arrays as vectors of Euclidean space

`E n` is Mathlib's Euclidean space; `arr x` is the NumPy array (list of coordinates) of a vector `x`.
Every list of `n` real numbers is `arr x` for exactly one `x : E n` (`exists_arr`, `arr_injective`), so
quantifying over `x : E n` and `n` is quantifying over all real 1D arrays.
-/

namespace SkSpatial

/-- Euclidean `n`-space. -/
abbrev E (n : ℕ) := EuclideanSpace ℝ (Fin n)

/-- The array of coordinates of a vector. -/
noncomputable def arr {n : ℕ} (x : E n) : List ℝ := List.ofFn fun i => x i

/-- The array of rows of a list of vectors: an `(N, D)` array. -/
noncomputable def rows {n : ℕ} (P : List (E n)) : List (List ℝ) := P.map arr

/-- The set of points of the line through `p` with direction `d`. -/
def lineSet {n : ℕ} (p d : E n) : Set (E n) := {x | ∃ t : ℝ, x = p + t • d}

/-- The set of points of the (hyper)plane through `p` with normal `m`. -/
def planeSet {n : ℕ} (p m : E n) : Set (E n) := {x | inner ℝ (x - p) m = 0}

/-- A 2D vector from its coordinates. -/
noncomputable def vec2 (x y : ℝ) : E 2 := !₂[x, y]
/-- A 3D vector from its coordinates. -/
noncomputable def vec3 (x y z : ℝ) : E 3 := !₂[x, y, z]

/-- Zero-padding (for `n ≤ m`) a vector to dimension `m`. -/
noncomputable def padTo {n : ℕ} (m : ℕ) (x : E n) : E m :=
  WithLp.toLp 2 fun i => if h : (i : ℕ) < n then x ⟨i, h⟩ else 0

/-- Zero-padding to 3D. -/
noncomputable abbrev pad3 {n : ℕ} (x : E n) : E 3 := padTo 3 x

/-- The cross product on `E 3`. -/
noncomputable def crossE (x y : E 3) : E 3 :=
  vec3 (x 1 * y 2 - x 2 * y 1) (x 2 * y 0 - x 0 * y 2) (x 0 * y 1 - x 1 * y 0)

/-- The cosine of the angle between two non-zero vectors. -/
noncomputable def cosE {n : ℕ} (x y : E n) : ℝ := inner ℝ x y / (‖x‖ * ‖y‖)

/-- The documented meaning of `is_parallel` with the default tolerances: one vector is zero, or
`math.isclose(abs(cos), 1)`, i.e. the cosine is within `1e-9` of `1` or `-1`. -/
def NearParallel {n : ℕ} (x y : E n) : Prop := x = 0 ∨ y = 0 ∨ 1 - 1 / 1000000000 ≤ |cosE x y|

theorem arr_injective {n : ℕ} : Function.Injective (arr (n := n)) := by
  intro x y h
  have := List.ofFn_injective h
  ext i; exact congrFun this i

theorem exists_arr (l : List ℝ) : ∃ x : E l.length, arr x = l := by
  refine ⟨WithLp.toLp 2 fun i => l[i], ?_⟩
  simp [arr]

theorem exists_arr' {n : ℕ} (l : List ℝ) (h : l.length = n) : ∃ x : E n, arr x = l := by
  subst h; exact exists_arr l

end SkSpatial
