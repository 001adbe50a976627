import Verif.Spec.Space
import Mathlib.Topology.MetricSpace.HausdorffDistance
/-! # Specification vocabulary: cylinders -/

namespace SkSpatial

/-- The solid cylinder with base center `p`, axis vector `a` and radius `r`: the points
`p + t a + w` with `0 ≤ t ≤ 1`, `w` perpendicular to `a` and `|w| ≤ r`. -/
def solidCyl (p a : E 3) (r : ℝ) : Set (E 3) :=
  {x | ∃ (t : ℝ) (w : E 3), 0 ≤ t ∧ t ≤ 1 ∧ inner ℝ w a = (0 : ℝ) ∧ ‖w‖ ≤ r ∧ x = p + t • a + w}

/-- The lateral surface of the infinite cylinder: the points `p + t a + w` with any `t`, `w` perpendicular
to `a` and `|w| = r`. -/
def infCyl (p a : E 3) (r : ℝ) : Set (E 3) :=
  {x | ∃ (t : ℝ) (w : E 3), inner ℝ w a = (0 : ℝ) ∧ ‖w‖ = r ∧ x = p + t • a + w}

/-- The lateral surface of the finite cylinder. -/
def latCyl (p a : E 3) (r : ℝ) : Set (E 3) :=
  {x | ∃ (t : ℝ) (w : E 3), 0 ≤ t ∧ t ≤ 1 ∧ inner ℝ w a = (0 : ℝ) ∧ ‖w‖ = r ∧ x = p + t • a + w}

/-- The two rims of the finite cylinder, the circles where its lateral surface meets the caps. -/
def rims (p a : E 3) (r : ℝ) : Set (E 3) :=
  {x | ∃ (t : ℝ) (w : E 3), (t = 0 ∨ t = 1) ∧ inner ℝ w a = (0 : ℝ) ∧ ‖w‖ = r ∧ x = p + t • a + w}

/-- The cap of the finite cylinder around the point `p + t a` of its axis: the base for `t = 0`, the top for `t = 1`. -/
def capDisc (p a : E 3) (r t : ℝ) : Set (E 3) :=
  {x | ∃ w : E 3, inner ℝ w a = (0 : ℝ) ∧ ‖w‖ ≤ r ∧ x = p + t • a + w}

/-- How badly a list of points fits the infinite cylinder with axis `lineSet q d` and radius `s`: the sum over the
points of `(distance to the axis² - s²)²`, the error function of the reference the code cites. -/
noncomputable def cylResidual (q d : E 3) (s : ℝ) (P : List (E 3)) : ℝ :=
  (P.map fun x => (Metric.infDist x (lineSet q d) ^ 2 - s ^ 2) ^ 2).sum

end SkSpatial
