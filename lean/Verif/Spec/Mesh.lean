import Verif.Spec.Space
import Verif.Spec.Geometry
import Mathlib.Analysis.SpecialFunctions.Trigonometric.Basic
/-! # Exact meshes: what `to_points` approximates (C120) -/

namespace SkSpatial

/-- `k` evenly spaced values from `0` to `L`, both ends included; only `0` for `k = 1`. -/
noncomputable def evenSteps (L : ℝ) (k : ℕ) : List ℝ := (List.range k).map fun i : ℕ => (i : ℝ) * L / ((k : ℝ) - 1)

/-- The point of the sphere with center `c` and radius `r` at the polar angle `a` and the azimuth `b` (from the `y`-axis towards
the `x`-axis). -/
noncomputable def spherePoint (c : E 3) (r a b : ℝ) : E 3 :=
  c + r • vec3 (Real.sin a * Real.sin b) (Real.sin a * Real.cos b) (Real.cos a)

/-- `k × k` points of the sphere: `k` polar angles from `0` to `π`, and for each of them `k` azimuths from `0` to `2π`. -/
noncomputable def sphereMesh (c : E 3) (r : ℝ) (k : ℕ) : List (E 3) :=
  (evenSteps Real.pi k).flatMap fun a => (evenSteps (2 * Real.pi) k).map fun b => spherePoint c r a b

/-- `m × k` points of the lateral surface of the cylinder with base point `p`, unit axis `v`, length `L` and radius `r`: `m` angles
from `0` to `2π` in the plane of `e` and `f`, and for each of them `k` heights from `0` to `L`. -/
noncomputable def cylinderMesh (p v e f : E 3) (L r : ℝ) (k m : ℕ) : List (E 3) :=
  (evenSteps (2 * Real.pi) m).flatMap fun θ => (evenSteps L k).map fun t =>
    p + t • v + (r * Real.sin θ) • e + (r * Real.cos θ) • f

end SkSpatial
