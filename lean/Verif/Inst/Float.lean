import Verif.Model.Numpy
import Verif.Model.Norm
/-!
# The executable instance: `K = Float`

Used only by `Tests/Doctests.lean` and `Tests/Unit.lean`, which run the docstring examples and the unit tests of the
repository on the model.  No theorem is about
this instance.
-/

namespace SkSpatial

/-- Round half to even. -/
def rintFloat (x : Float) : Float :=
  let f := x.floor
  let d := x - f
  if d < 0.5 then f
  else if d > 0.5 then f + 1
  else if (f / 2).floor * 2 == f then f else f + 1

instance : PyNum Float where
  add := (· + ·)
  sub := (· - ·)
  mul := (· * ·)
  div := (· / ·)
  neg := fun x => -x
  ofInt := Float.ofInt
  lt := fun a b => decide (a < b)
  le := fun a b => decide (a ≤ b)
  eq := fun a b => a == b
  isFinite := Float.isFinite
  abs := Float.abs
  toFloat := id
  sqrt := Float.sqrt
  sin := Float.sin
  cos := Float.cos
  acos := Float.acos
  atan2 := Float.atan2
  pi := 3.141592653589793
  rint := rintFloat

instance : PyPow Float where
  pow := Float.pow

/-- Gaussian elimination with partial pivoting on the columns from `j`; the number of pivots. -/
def gaussRank (tol : Float) : Nat → Nat → List (List Float) → Nat
  | 0, _, _ => 0
  | fuel + 1, j, A =>
    let p := A.foldl (fun b r => if (r.getD j 0).abs > (b.getD j 0).abs then r else b) (A.headD [])
    let x := p.getD j 0
    if A.isEmpty then 0
    else if x.abs ≤ tol then gaussRank tol fuel (j + 1) A
    else
      let rest := A.erase p
      let rest := rest.map fun r =>
        let c := r.getD j 0 / x
        List.zipWith (fun a b => a - c * b) r p
      1 + gaussRank tol fuel (j + 1) rest

/-- Gauss-Jordan elimination of the augmented rows. -/
def gaussSolve (n : Nat) (A : List (List Float)) : Option (List Float) := Id.run do
  let mut M := A.toArray.map List.toArray
  for j in [0:n] do
    let mut p := j
    for i in [j:n] do
      if (M[i]![j]!).abs > (M[p]![j]!).abs then p := i
    if (M[p]![j]!).abs ≤ 1e-14 then return none
    let rp := M[p]!
    M := (M.set! p M[j]!).set! j rp
    let pj := M[j]!
    for i in [0:n] do
      if i != j then
        let c := M[i]![j]! / pj[j]!
        M := M.set! i ((M[i]!.zip pj).map fun (a, b) => a - c * b)
  return some ((List.range n).map fun i => M[i]![n]! / M[i]![i]!)

/-- Eigenvalues and eigenvectors of a symmetric matrix by the cyclic Jacobi method, in descending order. -/
def jacobiEigen (A : List (List Float)) : List (Float × List Float) := Id.run do
  let n := A.length
  let mut M := A.toArray.map List.toArray
  let mut V : Array (Array Float) := Array.ofFn fun i : Fin n => Array.ofFn fun j : Fin n => if i.1 == j.1 then 1 else 0
  for _ in [0:40] do
    for p in [0:n] do
      for q in [p+1:n] do
        let apq := M[p]![q]!
        if apq.abs > 1e-300 then
          let t := (M[q]![q]! - M[p]![p]!) / (2 * apq)
          let t := (if t ≥ 0 then 1 else -1) / (t.abs + (t * t + 1).sqrt)
          let c := 1 / (t * t + 1).sqrt
          let s := t * c
          for k in [0:n] do
            let x := M[k]![p]!
            let y := M[k]![q]!
            M := M.set! k ((M[k]!.set! p (c * x - s * y)).set! q (s * x + c * y))
          let rp := M[p]!
          let rq := M[q]!
          M := M.set! p ((rp.zip rq).map fun (x, y) => c * x - s * y)
          M := M.set! q ((rp.zip rq).map fun (x, y) => s * x + c * y)
          let vp := V[p]!
          let vq := V[q]!
          V := V.set! p ((vp.zip vq).map fun (x, y) => c * x - s * y)
          V := V.set! q ((vp.zip vq).map fun (x, y) => s * x + c * y)
  let es := (List.range n).map fun i => (M[i]![i]!, V[i]!.toList)
  return es.mergeSort fun a b => decide (a.1 ≥ b.1)

/-- A derivative-free minimiser in two variables (compass search), in place of Powell's method. -/
def compass (f : Float → Float → Float) (x0 : Float × Float) : Float × Float := Id.run do
  let mut x := x0
  let mut h := 0.5
  for _ in [0:4000] do
    if h < 1e-12 then break
    let cands := [(x.1 + h, x.2), (x.1 - h, x.2), (x.1, x.2 + h), (x.1, x.2 - h)]
    let best := cands.foldl (fun b c => if f c.1 c.2 < f b.1 b.2 then c else b) x
    if f best.1 best.2 < f x.1 x.2 then x := best else h := h / 2
  return x

/-- The routines of the external libraries needed by the tests: rank and solve by elimination, least squares by the
normal equations, the SVD by eigenvectors of the two Gram matrices (so the signs of the left and right vectors are
not matched), a compass search for the optimiser. -/
instance : NumpyExt Float where
  matrixRank := fun tol A => gaussRank (tol.getD 1e-10) (rowDim A) 0 A
  svd := fun _ A =>
    let At := transposeRows A
    let l := jacobiEigen (matMul A At)
    let r := jacobiEigen (matMul At A)
    (transposeRows (l.map (·.2)), (l.take (min l.length r.length)).map fun e => (max e.1 0).sqrt, r.map (·.2))
  solve := fun A b =>
    match gaussSolve A.length (List.zipWith (fun r x => r ++ [x]) A b) with
    | some x => .ok x
    | none => .error (.linAlgError "Singular matrix")
  lstsq := fun A b =>
    let At := transposeRows A
    let N := matMul At A
    let y := matVec At b
    (gaussSolve N.length (List.zipWith (fun r x => r ++ [x]) N y)).getD []
  minimizePowell := compass

end SkSpatial
