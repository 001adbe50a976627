import Verif.Spec.Rounding
import Verif.Inst.XReal
import Verif.Model.Objects
import Verif.Model.Numpy
/-!
# Specification vocabulary: IEEE 754 binary64

`binary64` rounds an extended real to the nearest binary64 number: 53 significant bits, multiples of `2⁻¹⁰⁷⁴` below the
normal range (gradual underflow), infinities from `2¹⁰²⁴` on (overflow).  `ieee` is the arithmetic on `XReal` in which every result is
rounded that way.  Simplification: there is one zero (no `-0.0`).
-/

namespace SkSpatial
open XReal

/-- The multiple of `2⁻ᵏ` nearest to `x`, ties to even, where `k` is chosen for 53 significant bits but at most 1074. -/
noncomputable def roundFloat (x : ℝ) : ℝ :=
  rintReal (x * (2 : ℝ) ^ min (52 - Int.log 2 |x|) 1074) / (2 : ℝ) ^ min (52 - Int.log 2 |x|) 1074

open Classical in
/-- Rounding to binary64, with overflow. -/
noncomputable def binary64 : XReal → XReal
  | fin x => if 2 ^ 1024 ≤ roundFloat x then posInf else if roundFloat x ≤ -2 ^ 1024 then negInf else fin (roundFloat x)
  | y => y

/-- IEEE 754 binary64 arithmetic. -/
@[reducible] noncomputable def ieee : PyNum XReal := roundedNum binary64

/-- `x` is a finite binary64 number. -/
def IsFloat (x : ℝ) : Prop := binary64 (fin x) = fin x

/-- `x` is a binary64 number that is zero or of magnitude between `2⁻⁵⁰` and `2⁵⁰` (about `1e-15` and `1e15`). -/
def Moderate (x : ℝ) : Prop := IsFloat x ∧ (x = 0 ∨ (2 : ℝ) ^ (-50 : ℤ) ≤ |x|) ∧ |x| ≤ 2 ^ (50 : ℤ)

/-- `x` is a binary64 number that is zero or of magnitude between `2⁻²⁰` and `2²⁰` (about `1e-6` and `1e6`). -/
def Everyday (x : ℝ) : Prop := IsFloat x ∧ (x = 0 ∨ (2 : ℝ) ^ (-20 : ℤ) ≤ |x|) ∧ |x| ≤ 2 ^ (20 : ℤ)

/-- The array of floats with the coordinates of `x`. -/
noncomputable def xarr {n : ℕ} (x : E n) : List XReal := (arr x).map fin

/-- All coordinates of `x` are moderate binary64 numbers. -/
def ModerateV {n : ℕ} (x : E n) : Prop := ∀ i, Moderate (x i)

/-- All coordinates of `x` are everyday binary64 numbers. -/
def EverydayV {n : ℕ} (x : E n) : Prop := ∀ i, Everyday (x i)

/-- The value of a computation over the reals, as a computation over floats. -/
def asFloat : Res ℝ → Res XReal := Except.map fin

/-- Likewise for arrays. -/
def asFloats : Res (List ℝ) → Res (List XReal) := Except.map (List.map fin)

/-- A pair of arrays of reals, as arrays of floats. -/
def asPair : Res (List ℝ × List ℝ) → Res (List XReal × List XReal) := Except.map fun p => (p.1.map fin, p.2.map fin)

/-- Lists of arrays of reals, as arrays of floats. -/
def asRows : Res (List (List ℝ)) → Res (List (List XReal)) := Except.map (List.map (List.map fin))

/-- A line with real coordinates, as a line with float coordinates. -/
def asLine : Res (Line ℝ) → Res (Line XReal) := Except.map fun l => ⟨l.point.map fin, l.direction.map fin⟩

/-- Likewise for planes. -/
def asPlane : Res (Plane ℝ) → Res (Plane XReal) := Except.map fun P => ⟨P.point.map fin, P.normal.map fin⟩

/-- Likewise for segments. -/
def asSegment : Res (LineSegment ℝ) → Res (LineSegment XReal) := Except.map fun s => ⟨s.pointA.map fin, s.pointB.map fin⟩

/-- The arrays of floats with the coordinates of a list of points. -/
noncomputable def xrows {n : ℕ} (P : List (E n)) : List (List XReal) := P.map xarr

/-- The value of a finite float (and 0 for infinities and NaN). -/
def XReal.value : XReal → ℝ
  | fin x => x
  | _ => 0

/-- NumPy's routines for arrays of floats, applied to arrays of reals. -/
noncomputable def viaFloats (ext : NumpyExt XReal) : NumpyExt ℝ where
  matrixRank tol A := ext.matrixRank (tol.map fin) (A.map (List.map fin))
  svd full A := ((ext.svd full (A.map (List.map fin))).1.map (List.map XReal.value), (ext.svd full (A.map (List.map fin))).2.1.map XReal.value,
    (ext.svd full (A.map (List.map fin))).2.2.map (List.map XReal.value))
  solve A b := (ext.solve (A.map (List.map fin)) (b.map fin)).map (List.map XReal.value)
  lstsq A b := (ext.lstsq (A.map (List.map fin)) (b.map fin)).map XReal.value
  minimizePowell f x := ((ext.minimizePowell (fun a b => fin (f a.value b.value)) (fin x.1, fin x.2)).1.value,
    (ext.minimizePowell (fun a b => fin (f a.value b.value)) (fin x.1, fin x.2)).2.value)

end SkSpatial
