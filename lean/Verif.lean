import Verif.Model.Cylinder
import Verif.Model.Sphere
import Verif.Model.LineSegment
import Verif.Model.Triangle
import Verif.Model.Measurement
import Verif.Inst.Real
import Verif.Spec.Arrays
import Verif.Spec.Geometry
import Verif.Spec.Repr
import Verif.Spec.Space
import Verif.Lemmas.Bridge
import Verif.Lemmas.Vector
import Verif.Inst.XReal
import Verif.Props.Arrays
import Verif.Props.Constructors
import Verif.Props.Vector
import Verif.Props.Vector2
import Verif.Spec.Numpy
import Verif.Lemmas.Points
import Verif.Lemmas.Rank
import Verif.Lemmas.Svd
import Verif.Props.Points
import Verif.Lemmas.Line
import Verif.Props.Line
import Verif.Lemmas.Plane
import Verif.Props.Plane
import Verif.Props.BestFit
import Verif.Props.Circle
import Verif.Props.Circle2
import Verif.Spec.Cylinder
import Verif.Props.FitSphere
import Verif.Props.Cylinder
import Verif.Spec.Measure
import Verif.Props.Measurement
import Verif.Props.AreaSigned
import Verif.Lemmas.Collinear3
import Verif.Props.Triangle
import Verif.Props.Altitude
import Verif.Props.LineSegment
import Verif.Props.Measures
import Verif.Props.CylinderMesh
import Verif.Props.CylinderFit
import Verif.Model.Heap
import Verif.Model.Plotter
import Verif.Spec.Heap
import Verif.Spec.Plot
import Verif.Lemmas.Heap
import Verif.Props.Heap
import Verif.Model.HeapMethods
import Verif.Props.HeapMethods
import Verif.Props.Plotter
import Verif.Inst.Rounded
import Verif.Spec.Rounding
import Verif.Lemmas.Rint
import Verif.Lemmas.Rounding
import Verif.Props.Rounding
import Verif.Props.Rounding2
import Verif.Props.Rounding3
import Verif.Props.Rounding4
import Verif.Props.Rounding5
import Verif.Props.Rounding6
import Verif.Props.Rounding7
import Verif.Props.Rounding8
import Verif.Props.Rounding9
import Verif.Props.Rounding10
import Verif.Props.Rounding11
import Verif.Props.Rounding12
import Verif.Props.Rounding13
import Verif.Props.Ieee
import Verif.Props.Ieee2
import Verif.Props.Ieee3
import Verif.Props.Ieee4
import Verif.Props.Ieee5
import Verif.Props.Ieee6
import Verif.Props.Ieee7
import Verif.Props.Ieee8
import Verif.Props.Ieee9
import Verif.Props.Ieee10
import Verif.Props.Ieee11
import Verif.Props.Ieee12
import Verif.Props.IeeeErrors
import Verif.Props.IeeeErrors2
import Verif.Props.Ieee13
import Verif.Props.IeeeErrors3
import Verif.Props.SumOrder
import Verif.Lemmas.RoundNearest
import Verif.Lemmas.Binary64
import Verif.Props.Binary64
import Verif.Props.Norm
import Verif.Props.Integers
import Verif.Props.Repr
import Verif.Props.Raises
import Verif.Props.Dimensions
import Verif.Props.RankDefault
import Verif.Props.Similarity
import Verif.Props.Similarity2
import Verif.Props.Similarity3
import Verif.Props.Representation
import Verif.Props.Representation2
import Verif.Props.Order
import Verif.Props.Scaling
import Verif.Props.Scaling2
import Verif.Props.Scaling3
import Verif.Props.RankRounded
import Verif.Props.RankRounded2
import Verif.Props.BestFitRounded
import Verif.Props.BestFitRounded2
import Verif.Props.BestFitRounded3
import Verif.Props.PyFloat
import Verif.Props.CoplanarRounded
import Verif.Props.Rounding14
import Verif.Props.Rounding15
import Verif.Props.Rounding16
import Verif.Props.Rounding17
import Verif.Props.Rounding18
import Verif.Props.Rounding19
import Verif.Props.Rounding20
import Verif.Props.Rounding21
import Verif.Props.Rounding22
import Verif.Model.Det
import Verif.Spec.Det
import Verif.Props.Rounding23
import Verif.Props.Rounding24
import Verif.Props.Rounding25
import Verif.Props.Rounding26
import Verif.Props.Rounding27
import Verif.Props.Rounding28
import Verif.Props.Rounding29
import Verif.Props.Rounding30
import Verif.Props.Rounding31
import Verif.Props.Rounding32
import Verif.Props.Ieee14
import Verif.Props.Ieee15
import Verif.Props.Ieee16
import Verif.Props.Ieee17
import Verif.Inst.Float
import Verif.Tests.Doctests
import Verif.Tests.Unit
import Verif.Tests.Repr
