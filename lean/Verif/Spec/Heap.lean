import Verif.Model.Heap
/-!
# Specification vocabulary: which arrays share memory

`regions h` is computed from the history alone, without running it: for each operation, the memory region
(named by the operation that allocated it) of each array of the object it returns.
-/

namespace SkSpatial
namespace Mem
variable {K : Type}

/-- The region of `np.asarray(x)`: that of an existing array, a new one for a list. -/
def srcRegion (rs : List (List Addr)) (new : Addr) : Src K → Addr
  | .obj j => (rs.getD j []).headD new
  | _ => new

/-- The regions of the object returned by an operation, given those of the earlier ones. -/
def opRegions (rs : List (List Addr)) : Op K → List Addr
  -- these allocate
  | .array _ | .newPoints _ | .toArray _ | .add _ _ | .setDimension _ _ | .roundWrap _ _ | .call _ _ => [(rs.length, 0)]
  -- `Point(x)`, `Vector(x)`: the memory of `x`
  | .new1D x => [srcRegion rs (rs.length, 0) x]
  -- views and in-place operations: the memory of the array
  | .row j _ | .slice j _ _ | .round j _ | .iadd j _ => [(rs.getD j []).headD (rs.length, 0)]
  | .setItem _ _ _ | .fill _ _ => []
  -- a compound object keeps the memory of each of its arguments
  | .build _ xs => xs.mapIdx fun i x => srcRegion rs (rs.length, i) x
  | .field j i => [(rs.getD j []).getD i (rs.length, 0)]

/-- The regions of all objects of a history. -/
def regions (h : List (Op K)) : List (List Addr) := h.foldl (fun rs op => rs ++ [opRegions rs op]) []

/-- The region of the `i`-th array of the object named `j`. -/
def region (h : List (Op K)) (j i : Nat) : Option Addr := ((regions h).getD j [])[i]?

/-- The `i`-th array of `j` and the `l`-th array of `k` refer to the same memory. -/
def Share (h : List (Op K)) (j i k l : Nat) : Prop := ∃ a, region h j i = some a ∧ region h k l = some a

/-- The array an operation writes to. -/
def target : Op K → Option Nat
  | .round j _ | .roundWrap j _ | .setItem j _ _ | .fill j _ | .iadd j _ => some j
  | _ => none

/-- The state after a history. -/
def after [PyNum K] (h : List (Op K)) : State K := (init : State K).run h

/-- The object named `j` is one array with the given shape and entries. -/
def IsArray [PyNum K] (s : State K) (j : Nat) (shape : List Nat) (vals : List K) : Prop :=
  s.value j 0 = some (shape, vals) ∧ s.value j 1 = none

/-- `np.array(x)`, `Points(x)`, `x.to_array()`, `x + y`, `x.set_dimension(n)` and the methods that compute a new
array allocate. -/
def Allocates : Op K → Prop
  | .array _ | .newPoints _ | .toArray _ | .add _ _ | .setDimension _ _ | .call _ _ => True
  | _ => False

end Mem
end SkSpatial
