import Verif.Model.Plotter
import Verif.Spec.Space
/-! # Specification vocabulary for plotting: which classes can be plotted, and what a drawing shows -/

namespace SkSpatial

/-- The classes with a `plot_2d` method. -/
def PlottableIn2D {K : Type} : Obj K → Prop
  | .circle _ | .line _ | .segment _ | .point _ | .points _ | .triangle _ | .vector _ => True
  | .plane _ | .sphere _ | .cylinder _ => False

/-- The classes with a `plot_3d` method. -/
def PlottableIn3D {K : Type} : Obj K → Prop
  | .cylinder _ | .line _ | .segment _ | .plane _ | .point _ | .points _ | .sphere _ | .triangle _ | .vector _ => True
  | .circle _ => False

/-- A segment drawn in the plane, given by the coordinate lists passed to `ax.plot`. -/
noncomputable def drawnSegment2 (a b : E 2) : Drawing ℝ := .plot [[a 0, b 0], [a 1, b 1]]
/-- A segment drawn in space. -/
noncomputable def drawnSegment3 (a b : E 3) : Drawing ℝ := .plot [[a 0, b 0], [a 1, b 1], [a 2, b 2]]
/-- Points drawn in the plane. -/
noncomputable def drawnPoints2 (P : List (E 2)) : Drawing ℝ := .scatter [P.map (· 0), P.map (· 1)]
/-- Points drawn in space. -/
noncomputable def drawnPoints3 (P : List (E 3)) : Drawing ℝ := .scatter [P.map (· 0), P.map (· 1), P.map (· 2)]

end SkSpatial
