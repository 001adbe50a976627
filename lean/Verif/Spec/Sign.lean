import Verif.Inst.XReal
/-!
# Specification vocabulary: changing signs of arrays of floats
-/

namespace SkSpatial

/-- The array with all signs changed. -/
def negl (l : List XReal) : List XReal := l.map XReal.neg

end SkSpatial
