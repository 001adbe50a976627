import Verif.Model.Repr
/-! # The integer cases of tests/unit/objects/test_all_objects.py:10-34 -/
namespace SkSpatial
#guard npShow.repr (.point [0]) == "Point([0])"
#guard npShow.repr (.point [0, 0]) == "Point([0, 0])"
#guard npShow.repr (.point [-11, 0]) == "Point([-11,   0])"
#guard npShow.repr (.vector [-11, 0]) == "Vector([-11,   0])"
#guard npShow.repr (.vector [0, 0]) == "Vector([0, 0])"
#guard npShow.repr (.line ⟨[0, 0], [1, 0]⟩) == "Line(point=Point([0, 0]), direction=Vector([1, 0]))"
#guard npShow.repr (.line ⟨[-1, 2, 3], [5, 4, 2]⟩) == "Line(point=Point([-1,  2,  3]), direction=Vector([5, 4, 2]))"
#guard npShow.repr (.segment ⟨[0, 0], [1, 0]⟩) == "LineSegment(point_a=Point([0, 0]), point_b=Point([1, 0]))"
#guard npShow.repr (.segment ⟨[-1, 2, 3], [5, 4, 2]⟩) == "LineSegment(point_a=Point([-1,  2,  3]), point_b=Point([5, 4, 2]))"
#guard npShow.repr (.plane ⟨[0, 0], [1, 0]⟩) == "Plane(point=Point([0, 0]), normal=Vector([1, 0]))"
#guard npShow.repr (.plane ⟨[-1, 2, 3], [5, 4, 2]⟩) == "Plane(point=Point([-1,  2,  3]), normal=Vector([5, 4, 2]))"
#guard npShow.repr (.circle ⟨[0, 0], 1⟩) == "Circle(point=Point([0, 0]), radius=1)"
#guard npShow.repr (.sphere ⟨[0, 0, 0], 1⟩) == "Sphere(point=Point([0, 0, 0]), radius=1)"
#guard npShow.repr (.triangle ⟨[0, 0], [0, 1], [1, 0]⟩) ==
  "Triangle(point_a=Point([0, 0]), point_b=Point([0, 1]), point_c=Point([1, 0]))"
#guard npShow.repr (.cylinder ⟨[0, 0, 0], [0, 0, 1], 1⟩) ==
  "Cylinder(point=Point([0, 0, 0]), vector=Vector([0, 0, 1]), radius=1)"
end SkSpatial
