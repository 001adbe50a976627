import Verif.Props.Ieee16
import Verif.Spec.Sign
/-!
# C130: symmetries that hold bit for bit in IEEE binary64

Changing the sign of all coordinates of a vector, or exchanging two points, changes the result in the expected way, exactly, for numbers of any
magnitude: also if intermediate results overflow or underflow.  (There is one zero here: `0` and `-0.0` are not distinguished.)
-/

namespace SkSpatial
open XReal

attribute [local instance 10000] ieee

namespace Sign

theorem ofSign_neg (a : ℝ) : XReal.ofSign (-a) = XReal.neg (XReal.ofSign a) := by
  unfold XReal.ofSign
  rcases lt_trichotomy a 0 with h | h | h
  · simp [h, h.le, not_lt.mpr h.le, XReal.neg]
  · simp [h, XReal.neg]
  · simp [h, h.le, not_lt.mpr h.le, XReal.neg]

theorem sgn_neg (x : XReal) : XReal.sgn (XReal.neg x) = -XReal.sgn x := by
  cases x <;> simp [XReal.sgn, XReal.neg]

theorem neg_neg' (x : XReal) : XReal.neg (XReal.neg x) = x := by cases x <;> simp [XReal.neg]

theorem binary64_neg (x : XReal) : binary64 (XReal.neg x) = XReal.neg (binary64 x) := by
  cases x with
  | fin x =>
    simp only [binary64, XReal.neg, roundFloat_neg]
    have hp : (0 : ℝ) < 2 ^ 1024 := by positivity
    generalize (2 : ℝ) ^ 1024 = C at hp
    by_cases h1 : C ≤ roundFloat x
    · have h2 : ¬ C ≤ -roundFloat x := by intro h; linarith
      have h3 : -roundFloat x ≤ -C := by linarith
      rw [if_pos h1, if_neg h2, if_pos h3]
    · by_cases h2 : roundFloat x ≤ -C
      · have h3 : C ≤ -roundFloat x := by linarith
        rw [if_neg h1, if_pos h2, if_pos h3]
      · have h3 : ¬ C ≤ -roundFloat x := by intro h; exact h2 (by linarith)
        have h4 : ¬ -roundFloat x ≤ -C := by intro h; exact h1 (by linarith)
        rw [if_neg h1, if_neg h2, if_neg h3, if_neg h4]
  | _ => rfl

theorem xmul_comm (x y : XReal) : XReal.mul x y = XReal.mul y x := by
  cases x <;> cases y <;> simp [XReal.mul, XReal.sgn, mul_comm]

theorem mul_comm' (x y : XReal) : x *. y = y *. x := congrArg binary64 (xmul_comm x y)

theorem xmul_neg (x y : XReal) : XReal.mul (XReal.neg x) y = XReal.neg (XReal.mul x y) := by
  have h : ∀ a b : XReal, XReal.ofSign (XReal.sgn (XReal.neg a) * XReal.sgn b) = XReal.neg (XReal.ofSign (XReal.sgn a * XReal.sgn b)) := fun a b => by
    rw [Sign.sgn_neg, neg_mul, ofSign_neg]
  have h' := h x y
  cases x <;> cases y <;> first | exact h' | exact congrArg fin (neg_mul _ _)

theorem neg_mul' (x y : XReal) : XReal.neg x *. y = XReal.neg (x *. y) :=
  (congrArg binary64 (xmul_neg x y)).trans (binary64_neg _)

theorem mul_neg' (x y : XReal) : x *. XReal.neg y = XReal.neg (x *. y) := by rw [mul_comm', neg_mul', mul_comm']

theorem xadd_neg (x y : XReal) : XReal.add (XReal.neg x) (XReal.neg y) = XReal.neg (XReal.add x y) := by
  cases x <;> cases y <;> simp [XReal.add, XReal.neg, add_comm]

theorem xadd_comm (x y : XReal) : XReal.add x y = XReal.add y x := by
  cases x <;> cases y <;> simp [XReal.add, add_comm]

theorem neg_add' (x y : XReal) : XReal.neg x +. XReal.neg y = XReal.neg (x +. y) :=
  (congrArg binary64 (xadd_neg x y)).trans (binary64_neg _)

theorem neg_sub' (x y : XReal) : XReal.neg x -. XReal.neg y = XReal.neg (x -. y) :=
  (congrArg binary64 (xadd_neg x (XReal.neg y))).trans (binary64_neg _)

theorem sub_comm' (x y : XReal) : x -. y = XReal.neg (y -. x) := by
  refine Eq.trans (congrArg binary64 ?_) (binary64_neg (XReal.add y (XReal.neg x)))
  rw [← xadd_neg, neg_neg', xadd_comm]

theorem xdiv_neg (x y : XReal) : XReal.div (XReal.neg x) y = XReal.neg (XReal.div x y) := by
  cases x <;> cases y <;> simp only [XReal.div, XReal.neg, neg_zero]
  · split_ifs
    · exact ofSign_neg _
    · rw [neg_div]
  · split_ifs
    · rfl
    · exact ofSign_neg _
  · split_ifs
    · rfl
    · rw [← neg_neg' (ofSign _), ← ofSign_neg]
      rfl

theorem neg_div' (x y : XReal) : XReal.neg x /. y = XReal.neg (x /. y) :=
  (congrArg binary64 (xdiv_neg x y)).trans (binary64_neg _)

theorem abs_neg' (x : XReal) : PyNum.abs (XReal.neg x) = PyNum.abs x := by
  cases x <;> simp [PyNum.abs, XReal.abs, XReal.neg]

theorem neg_zero' : XReal.neg (zero : XReal) = zero := by
  show XReal.neg (fin ((0 : ℤ) : ℝ)) = fin ((0 : ℤ) : ℝ)
  simp [XReal.neg]

theorem isFinite_neg' (x : XReal) : PyNum.isFinite (XReal.neg x) = PyNum.isFinite x := by cases x <;> rfl

theorem lt_neg' (x y : XReal) : (XReal.neg x <. XReal.neg y) = (y <. x) := by
  show XReal.lt _ _ = XReal.lt _ _
  cases x <;> cases y <;> simp [XReal.lt, XReal.neg]

theorem eq_neg' (x y : XReal) : (XReal.neg x ==. XReal.neg y) = (x ==. y) := by
  show XReal.eq _ _ = XReal.eq _ _
  cases x <;> cases y <;> simp [XReal.eq, XReal.neg]

theorem dotv_eq (a b : List XReal) : dotv a b = (List.zipWith PyNum.mul a b).foldl PyNum.add zero := rfl

theorem foldl_neg (l : List XReal) (s : XReal) : (l.map XReal.neg).foldl PyNum.add (XReal.neg s) = XReal.neg (l.foldl PyNum.add s) := by
  induction l generalizing s with
  | nil => rfl
  | cons x l ih => rw [List.map_cons, List.foldl_cons, List.foldl_cons, neg_add', ih]

theorem dotv_neg (a b : List XReal) : dotv (negl a) b = XReal.neg (dotv a b) := by
  have h : List.zipWith PyNum.mul (negl a) b = (List.zipWith PyNum.mul a b).map XReal.neg := by
    rw [negl, List.zipWith_map_left, List.map_zipWith]
    congr 1
    funext x y
    exact neg_mul' x y
  rw [dotv_eq, dotv_eq, h]
  conv_lhs => rw [← neg_zero']
  exact foldl_neg _ _

theorem dotv_comm (a b : List XReal) : dotv a b = dotv b a := by
  rw [dotv_eq, dotv_eq, List.zipWith_comm]
  congr 2
  funext x y
  exact mul_comm' _ _

theorem dotv_neg' (a b : List XReal) : dotv a (negl b) = XReal.neg (dotv a b) := by rw [dotv_comm, dotv_neg, dotv_comm]

theorem length_negl (a : List XReal) : (negl a).length = a.length := by simp [negl]

theorem dot_comm (a b : List XReal) : dot a b = dot b a := by
  unfold dot
  by_cases h : a.length = b.length
  · rw [if_pos h, if_pos h.symm, dotv_comm]
  · rw [if_neg h, if_neg (fun h' => h h'.symm)]

theorem dot_neg (a b : List XReal) : dot (negl a) b = (dot a b).map XReal.neg := by
  unfold dot
  rw [length_negl, dotv_neg]
  split_ifs <;> rfl

theorem dot_neg' (a b : List XReal) : dot a (negl b) = (dot a b).map XReal.neg := by rw [dot_comm, dot_neg, dot_comm]

theorem negl_negl (a : List XReal) : negl (negl a) = a := by
  rw [negl, negl, List.map_map, show XReal.neg ∘ XReal.neg = id from funext neg_neg', List.map_id]

theorem dot_neg_neg (a b : List XReal) : dot (negl a) (negl b) = dot a b := by
  rw [dot_neg, dot_neg']
  cases dot a b with
  | error e => rfl
  | ok d => exact congrArg Except.ok (neg_neg' d)

theorem normv_neg (a : List XReal) : normv (negl a) = normv a := by
  have h : ∀ l : List XReal, toFloats l = l := fun l => List.map_id l
  unfold normv
  rw [h, h, dotv_neg, dotv_neg', neg_neg']

theorem new1D_neg (a : List XReal) : new1D (negl a) = (new1D a).map negl := by
  have h : (negl a).all PyNum.isFinite = a.all PyNum.isFinite := by
    rw [negl, List.all_map]; congr 1; funext x; exact isFinite_neg' x
  unfold new1D
  rw [length_negl, h]
  split_ifs <;> rfl

theorem broadcast2_neg {f g : XReal → XReal → XReal} (h : ∀ x y, f x y = XReal.neg (g y x)) (a b : List XReal) :
    broadcast2 f a b = (broadcast2 g b a).map negl := by
  unfold broadcast2
  by_cases hl : a.length = b.length
  · rw [if_pos hl, if_pos hl.symm]
    refine congrArg Except.ok ?_
    rw [negl, List.map_zipWith, List.zipWith_comm]
    congr 1
    funext x y
    exact h _ _
  · rw [if_neg hl, if_neg (fun h => hl h.symm)]
    match a, b, hl with
    | [x], [y], hl => exact absurd rfl hl
    | [x], [], _ => rfl
    | [x], y :: z :: t, _ =>
      refine congrArg Except.ok ?_
      rw [negl, List.map_map]
      exact List.map_congr_left fun y _ => h _ _
    | [], [y], _ => rfl
    | x :: z :: t, [y], _ =>
      refine congrArg Except.ok ?_
      rw [negl, List.map_map]
      exact List.map_congr_left fun y _ => h _ _
    | [], [], hl => exact absurd rfl hl
    | [], _ :: _ :: _, _ => rfl
    | _ :: _ :: _, [], _ => rfl
    | _ :: _ :: _, _ :: _ :: _, _ => rfl

theorem vsub_comm (a b : List XReal) : vsub a b = (vsub b a).map negl := broadcast2_neg sub_comm' a b

theorem fromPoints_comm (a b : List XReal) : Vec.fromPoints a b = (Vec.fromPoints b a).map negl := by
  unfold Vec.fromPoints
  rw [vsub_comm]
  cases vsub a b with
  | error e => rfl
  | ok c => exact new1D_neg c

theorem smul_neg_neg (t : XReal) (a : List XReal) : smul (XReal.neg t) (negl a) = smul t a := by
  rw [smul, smul, negl, List.map_map]
  refine List.map_congr_left fun x _ => ?_
  show XReal.neg t *. XReal.neg x = t *. x
  rw [neg_mul', mul_neg', neg_neg']

theorem smul_neg (t : XReal) (a : List XReal) : smul t (negl a) = negl (smul t a) := by
  rw [smul, smul, negl, negl, List.map_map, List.map_map]
  refine List.map_congr_left fun x _ => ?_
  exact mul_neg' t x

theorem sdiv_neg (a : List XReal) (t : XReal) : sdiv (negl a) t = negl (sdiv a t) := by
  rw [sdiv, sdiv, negl, negl, List.map_map, List.map_map]
  refine List.map_congr_left fun x _ => ?_
  exact neg_div' x t

theorem unit_neg (a : List XReal) : Vec.unit (negl a) = (Vec.unit a).map negl := by
  have e : Vec.norm (negl a) = Vec.norm a := normv_neg a
  simp only [Vec.unit, e, sdiv_neg]
  by_cases h : Vec.norm a ==. zero
  · rw [if_pos h, if_pos h]; rfl
  · rw [if_neg h, if_neg h]; rfl

theorem isclose_neg (tol : Tol XReal) (a b : XReal) : isclose tol (XReal.neg a) (XReal.neg b) = isclose tol a b := by
  unfold isclose
  have h1 : PyNum.toFloat (XReal.neg a) = XReal.neg (PyNum.toFloat a) := rfl
  have h2 : PyNum.toFloat (XReal.neg b) = XReal.neg (PyNum.toFloat b) := rfl
  simp only [h1, h2, eq_neg', isFinite_neg', neg_sub', mul_neg', abs_neg']

theorem isclose_zero_neg (tol : Tol XReal) (a : XReal) : isclose tol (XReal.neg a) zero = isclose tol a zero := by
  conv_lhs => rw [← neg_zero']
  exact isclose_neg tol a zero

theorem isZero_neg (tol : Tol XReal) (a : List XReal) : Vec.isZero tol (negl a) = Vec.isZero tol a := by
  simp only [Vec.isZero, dot_neg_neg]

theorem clip_neg (x : XReal) : clip (XReal.neg x) (PyNum.ofInt (-1)) one = XReal.neg (clip x (PyNum.ofInt (-1)) one) := by
  have e1 : (PyNum.ofInt (-1) : XReal) = XReal.neg one := by
    show fin ((-1 : ℤ) : ℝ) = XReal.neg (fin ((1 : ℤ) : ℝ))
    simp [XReal.neg]
  have e2 : (one : XReal) = XReal.neg (PyNum.ofInt (-1)) := by rw [e1, neg_neg']
  have l1 : (XReal.neg x <. PyNum.ofInt (-1)) = ((one : XReal) <. x) := by rw [e1, lt_neg']
  have l2 : ((one : XReal) <. XReal.neg x) = (x <. PyNum.ofInt (-1)) := by
    conv_lhs => rw [e2]
    rw [lt_neg']
  unfold clip
  rw [l1, l2]
  by_cases h1 : (one : XReal) <. x
  · by_cases h2 : x <. PyNum.ofInt (-1)
    · exfalso
      revert h1 h2
      show XReal.lt (fin ((1 : ℤ) : ℝ)) x = true → XReal.lt x (fin ((-1 : ℤ) : ℝ)) = true → False
      cases x <;> simp [XReal.lt]
      intro h1
      linarith
    · rw [if_pos h1, if_neg h2, if_pos h1, e1]
  · by_cases h2 : x <. PyNum.ofInt (-1)
    · rw [if_neg h1, if_pos h2, if_pos h2, ← e2]
    · rw [if_neg h1, if_neg h2, if_neg h2, if_neg h1]

theorem cosine_comm {a b : List XReal} (ha : new1D a = .ok a) (hb : new1D b = .ok b) :
    Vec.cosineSimilarity a b = Vec.cosineSimilarity b a := by
  simp only [Vec.cosineSimilarity, ha, hb, ok_bind, mul_comm' (Vec.norm a), dot_comm a b]

theorem ok_neg {a : List XReal} (ha : new1D a = .ok a) : new1D (negl a) = .ok (negl a) := by rw [new1D_neg, ha]; rfl

theorem cosine_neg (a b : List XReal) : Vec.cosineSimilarity (negl a) b = (Vec.cosineSimilarity a b).map XReal.neg := by
  have e : Vec.norm (negl a) = Vec.norm a := normv_neg a
  simp only [Vec.cosineSimilarity, e, dot_neg]
  cases new1D b with
  | error e => rfl
  | ok o =>
    simp only [ok_bind]
    by_cases h : Vec.norm a *. Vec.norm o ==. zero
    · simp only [h, if_true]; rfl
    · simp only [h, Bool.false_eq_true, if_false]
      cases dot a b with
      | error e => rfl
      | ok d =>
        refine congrArg Except.ok ?_
        rw [neg_div', clip_neg]

theorem isZero_error {tol : Tol XReal} {a b : List XReal} {e : Err} (h : Vec.isZero tol a = .error e) : Vec.isZero tol b = .error e := by
  have hd : ∀ a : List XReal, dot a a = .ok (dotv a a) := fun a => by simp [dot]
  simp only [Vec.isZero, hd, ok_bind, isclose] at h ⊢
  split_ifs at h ⊢ <;> first | exact h | cases h

theorem isParallel_comm (tol : Tol XReal) {a b : List XReal} (ha : new1D a = .ok a) (hb : new1D b = .ok b) :
    Vec.isParallel tol a b = Vec.isParallel tol b a := by
  simp only [Vec.isParallel, ha, hb, ok_bind, cosine_comm ha hb]
  cases h1 : Vec.isZero tol a with
  | error e => rw [isZero_error h1]
  | ok z1 =>
    cases h2 : Vec.isZero tol b with
    | error e => rw [isZero_error h2] at h1; cases h1
    | ok z2 => cases z1 <;> cases z2 <;> rfl

theorem isParallel_neg (tol : Tol XReal) (a b : List XReal) : Vec.isParallel tol (negl a) b = Vec.isParallel tol a b := by
  simp only [Vec.isParallel, isZero_neg, cosine_neg]
  congr 1
  funext z
  cases z
  · simp only [Bool.false_eq_true, if_false]
    cases Vec.cosineSimilarity a b with
    | error e => rfl
    | ok c => exact congrArg (fun t => isclose tol t one) (abs_neg' c)
  · rfl

theorem isPerp_neg (tol : Tol XReal) (a b : List XReal) : Vec.isPerpendicular tol (negl a) b = Vec.isPerpendicular tol a b := by
  simp only [Vec.isPerpendicular, dot_neg]
  cases dot a b with
  | error e => rfl
  | ok d => exact isclose_zero_neg tol d

theorem setDim_neg (k : Int) (a : List XReal) : setDimension k (negl a) = (setDimension k a).map negl := by
  unfold setDimension
  rw [length_negl]
  by_cases h : k < (a.length : Int)
  · rw [if_pos h, if_pos h]; rfl
  · rw [if_neg h, if_neg h, ← new1D_neg]
    congr 1
    rw [negl, negl, List.map_append, List.map_replicate, neg_zero']

theorem cross3_neg (a b : List XReal) : cross3 (negl a) b = (cross3 a b).map negl := by
  unfold cross3 negl
  match a, b with
  | [a0, a1, a2], [b0, b1, b2] => simp only [List.map_cons, List.map_nil, neg_mul', neg_sub']; rfl
  | [], _ => rfl
  | [_], _ => rfl
  | [_, _], _ => rfl
  | _ :: _ :: _ :: _ :: _, _ => rfl
  | [_, _, _], [] => rfl
  | [_, _, _], [_] => rfl
  | [_, _, _], [_, _] => rfl
  | [_, _, _], _ :: _ :: _ :: _ :: _ => rfl

theorem cross3_comm (a b : List XReal) : cross3 b a = (cross3 a b).map negl := by
  have key : ∀ x y z w : XReal, x *. y -. z *. w = XReal.neg (w *. z -. y *. x) := fun x y z w => by
    rw [sub_comm', mul_comm' x, mul_comm' z]
  unfold cross3 negl
  match a, b with
  | [a0, a1, a2], [b0, b1, b2] =>
    refine congrArg Except.ok ?_
    show [_, _, _] = [_, _, _]
    rw [key b1, key b2, key b0]
  | [], [] => rfl
  | [], [_] => rfl
  | [], [_, _] => rfl
  | [], [_, _, _] => rfl
  | [], _ :: _ :: _ :: _ :: _ => rfl
  | [_], [] => rfl
  | [_], [_] => rfl
  | [_], [_, _] => rfl
  | [_], [_, _, _] => rfl
  | [_], _ :: _ :: _ :: _ :: _ => rfl
  | [_, _], [] => rfl
  | [_, _], [_] => rfl
  | [_, _], [_, _] => rfl
  | [_, _], [_, _, _] => rfl
  | [_, _], _ :: _ :: _ :: _ :: _ => rfl
  | _ :: _ :: _ :: _ :: _, [] => rfl
  | _ :: _ :: _ :: _ :: _, [_] => rfl
  | _ :: _ :: _ :: _ :: _, [_, _] => rfl
  | _ :: _ :: _ :: _ :: _, [_, _, _] => rfl
  | _ :: _ :: _ :: _ :: _, _ :: _ :: _ :: _ :: _ => rfl
  | [_, _, _], [] => rfl
  | [_, _, _], [_] => rfl
  | [_, _, _], [_, _] => rfl
  | [_, _, _], _ :: _ :: _ :: _ :: _ => rfl

theorem cross_neg (a b : List XReal) : Vec.cross (negl a) b = (Vec.cross a b).map negl := by
  simp only [Vec.cross, setDim_neg]
  cases setDimension 3 a with
  | error e => rfl
  | ok a' =>
    simp only [show Except.map negl (.ok a' : Res (List XReal)) = .ok (negl a') from rfl, ok_bind]
    cases new1D b with
    | error e => rfl
    | ok b' =>
      simp only [ok_bind]
      cases setDimension 3 b' with
      | error e => rfl
      | ok b'' =>
        simp only [ok_bind, cross3_neg]
        cases cross3 a' b'' with
        | error e => rfl
        | ok c => exact new1D_neg c

theorem setDim_error {k : Int} {a : List XReal} {e : Err} (ha : new1D a = .ok a) (h : setDimension k a = .error e) :
    e = .valueError "The desired dimension cannot be less than the current dimension." := by
  unfold setDimension at h
  split_ifs at h with h1
  · exact (Except.error.inj h).symm
  · exfalso
    unfold new1D at h ha
    have hz : ∀ m, (List.replicate m (zero : XReal)).all PyNum.isFinite = true := by
      intro m
      rw [List.all_eq_true]
      intro x hx
      rw [List.eq_of_mem_replicate hx]
      rfl
    split_ifs at ha with h2 h3
    · simp only [List.length_append, List.all_append, hz, Bool.and_true] at h
      split_ifs at h with h4
      · omega

theorem cross_comm {a b : List XReal} (ha : new1D a = .ok a) (hb : new1D b = .ok b) : Vec.cross b a = (Vec.cross a b).map negl := by
  simp only [Vec.cross, ha, hb, ok_bind]
  cases h1 : setDimension 3 a with
  | error e =>
    rw [setDim_error ha h1]
    cases h2 : setDimension 3 b with
    | error e' => rw [setDim_error hb h2]; rfl
    | ok b' => rfl
  | ok a' =>
    cases h2 : setDimension 3 b with
    | error e' => rfl
    | ok b' =>
      simp only [ok_bind]
      rw [cross3_comm]
      cases cross3 a' b' with
      | error e => rfl
      | ok c => exact new1D_neg c

theorem project_neg (a b : List XReal) : Vec.projectVector (negl a) b = Vec.projectVector a b := by
  simp only [Vec.projectVector, dot_neg_neg]
  rw [dot_neg]
  cases dot a b with
  | error e => rfl
  | ok d =>
    simp only [show Except.map XReal.neg (.ok d : Res XReal) = .ok (XReal.neg d) from rfl, ok_bind, neg_div', smul_neg_neg]

theorem scalar_neg (a b : List XReal) : Vec.scalarProjection (negl a) b = (Vec.scalarProjection a b).map XReal.neg := by
  simp only [Vec.scalarProjection, unit_neg]
  cases Vec.unit a with
  | error e => rfl
  | ok u => exact dot_neg u b

theorem intSign_neg (x : XReal) : intSign (XReal.neg x) = (intSign x).map Neg.neg := by
  have l1 : ((zero : XReal) <. XReal.neg x) = (x <. zero) := by
    conv_lhs => rw [← neg_zero']
    exact lt_neg' _ _
  have l2 : (XReal.neg x <. (zero : XReal)) = (zero <. x) := by
    conv_lhs => rw [← neg_zero']
    exact lt_neg' _ _
  have l3 : (XReal.neg x ==. (zero : XReal)) = (x ==. zero) := by
    conv_lhs => rw [← neg_zero']
    exact eq_neg' _ _
  unfold intSign
  rw [l1, l2, l3]
  by_cases h1 : (zero : XReal) <. x
  · by_cases h2 : x <. (zero : XReal)
    · exfalso
      revert h1 h2
      show XReal.lt (fin ((0 : ℤ) : ℝ)) x = true → XReal.lt x (fin ((0 : ℤ) : ℝ)) = true → False
      cases x <;> simp [XReal.lt]
      intro h1
      linarith
    · rw [if_neg h2, if_pos h1, if_pos h1]; rfl
  · by_cases h2 : x <. (zero : XReal)
    · rw [if_pos h2, if_neg h1, if_pos h2]; rfl
    · rw [if_neg h2, if_neg h1, if_neg h1, if_neg h2]
      split_ifs <;> rfl

theorem xarr_neg {n : ℕ} (x : E n) : xarr (-x) = negl (xarr x) := by
  simp only [xarr, negl, arr, List.map_ofFn]
  congr 1

theorem angle_of_cosine (a b : List XReal) : Vec.angleBetween a b = Vec.cosineSimilarity a b >>= mathAcos := rfl

theorem linePlane_neg (p d : List XReal) : newLinePlane p (negl d) = (newLinePlane p d).map fun r => (r.1, negl r.2) := by
  unfold newLinePlane
  rw [new1D_neg]
  cases new1D p with
  | error e => rfl
  | ok p' =>
    simp only [ok_bind]
    cases new1D d with
    | error e => rfl
    | ok d' =>
      simp only [show Except.map negl (.ok d' : Res (List XReal)) = .ok (negl d') from rfl, ok_bind, length_negl, isZero_neg]
      by_cases h : p'.length ≠ d'.length
      · simp only [if_pos h]; rfl
      · simp only [if_neg h]
        cases Vec.isZero Tol.default d' with
        | error e => rfl
        | ok z => cases z <;> rfl

theorem line_neg (p d : List XReal) : Line.new p (negl d) = (Line.new p d).map fun L => ⟨L.point, negl L.direction⟩ := by
  unfold Line.new
  rw [linePlane_neg]
  cases newLinePlane p d <;> rfl

theorem plane_neg (p d : List XReal) : Plane.new p (negl d) = (Plane.new p d).map fun L => ⟨L.point, negl L.normal⟩ := by
  unfold Plane.new
  rw [linePlane_neg]
  cases newLinePlane p d <;> rfl

end Sign
open Sign

variable {n : ℕ}

/-- **C130** Exchanging the two vectors or points. -/
theorem C130_symmetric [NeZero n] (x y : E n) (tol : Tol XReal) :
    @Pt.distancePoint XReal ieee (xarr x) (xarr y) = @Pt.distancePoint XReal ieee (xarr y) (xarr x) ∧
    @Vec.cosineSimilarity XReal ieee (xarr x) (xarr y) = @Vec.cosineSimilarity XReal ieee (xarr y) (xarr x) ∧
    @Vec.angleBetween XReal ieee (xarr x) (xarr y) = @Vec.angleBetween XReal ieee (xarr y) (xarr x) ∧
    @Vec.isPerpendicular XReal ieee tol (xarr x) (xarr y) = @Vec.isPerpendicular XReal ieee tol (xarr y) (xarr x) ∧
    @Vec.isParallel XReal ieee tol (xarr x) (xarr y) = @Vec.isParallel XReal ieee tol (xarr y) (xarr x) ∧
    @Vec.cross XReal ieee (xarr y) (xarr x) = (@Vec.cross XReal ieee (xarr x) (xarr y)).map negl ∧
    @Vec.fromPoints XReal ieee (xarr y) (xarr x) = (@Vec.fromPoints XReal ieee (xarr x) (xarr y)).map negl := by
  have hx := ieee_new1D x
  have hy := ieee_new1D y
  refine ⟨?_, cosine_comm hx hy, ?_, ?_, isParallel_comm tol hx hy, cross_comm hx hy, fromPoints_comm _ _⟩
  · unfold Pt.distancePoint
    rw [fromPoints_comm]
    cases Vec.fromPoints (xarr y) (xarr x) with
    | error e => rfl
    | ok v => exact congrArg Except.ok (normv_neg v)
  · rw [angle_of_cosine, angle_of_cosine, cosine_comm hx hy]
  · simp only [Vec.isPerpendicular, dot_comm]

/-- **C130** The opposite vector. -/
theorem C130_opposite [NeZero n] (x y : E n) (tol : Tol XReal) :
    @Vec.norm XReal ieee (xarr (-x)) = @Vec.norm XReal ieee (xarr x) ∧
    @Vec.isZero XReal ieee tol (xarr (-x)) = @Vec.isZero XReal ieee tol (xarr x) ∧
    @Vec.unit XReal ieee (xarr (-x)) = (@Vec.unit XReal ieee (xarr x)).map negl ∧
    @Vec.cosineSimilarity XReal ieee (xarr (-x)) (xarr y) = (@Vec.cosineSimilarity XReal ieee (xarr x) (xarr y)).map XReal.neg ∧
    @Vec.angleBetween XReal ieee (xarr (-x)) (xarr (-y)) = @Vec.angleBetween XReal ieee (xarr x) (xarr y) ∧
    @Vec.isPerpendicular XReal ieee tol (xarr (-x)) (xarr y) = @Vec.isPerpendicular XReal ieee tol (xarr x) (xarr y) ∧
    @Vec.isParallel XReal ieee tol (xarr (-x)) (xarr y) = @Vec.isParallel XReal ieee tol (xarr x) (xarr y) ∧
    @Vec.cross XReal ieee (xarr (-x)) (xarr y) = (@Vec.cross XReal ieee (xarr x) (xarr y)).map negl ∧
    @Vec.scalarProjection XReal ieee (xarr (-x)) (xarr y) = (@Vec.scalarProjection XReal ieee (xarr x) (xarr y)).map XReal.neg ∧
    @Vec.projectVector XReal ieee (xarr (-x)) (xarr y) = @Vec.projectVector XReal ieee (xarr x) (xarr y) := by
  have hx := ieee_new1D x
  have hy := ieee_new1D y
  rw [xarr_neg, xarr_neg]
  refine ⟨normv_neg _, isZero_neg _ _, unit_neg _, cosine_neg _ _, ?_, isPerp_neg _ _ _, isParallel_neg _ _ _, cross_neg _ _, scalar_neg _ _,
    project_neg _ _⟩
  rw [angle_of_cosine, angle_of_cosine, cosine_neg, cosine_comm hx (ok_neg hy), cosine_neg, cosine_comm hy hx]
  cases Vec.cosineSimilarity (xarr x) (xarr y) with
  | error e => rfl
  | ok c => exact congrArg mathAcos (neg_neg' c)

/-- The side of a vector. -/
theorem side_neg (a b : List XReal) : Vec.sideVector (negl a) b = (Vec.sideVector a b).map Neg.neg := by
  unfold Vec.sideVector
  rw [length_negl]
  cases new1D b with
  | error e => rfl
  | ok o =>
    simp only [ok_bind]
    by_cases h : a.length ≠ 2 ∨ o.length ≠ 2
    · simp only [if_pos h]; rfl
    · simp only [if_neg h]
      cases setDimension 3 o with
      | error e => rfl
      | ok o3 =>
        simp only [ok_bind]
        rw [setDim_neg]
        cases setDimension 3 a with
        | error e => rfl
        | ok v3 =>
          simp only [show Except.map negl (.ok v3 : Res (List XReal)) = .ok (negl v3) from rfl, ok_bind]
          rw [show cross3 o3 (negl v3) = (cross3 o3 v3).map negl by
            rw [cross3_comm, cross3_neg, cross3_comm v3 o3]]
          cases hc : cross3 o3 v3 with
          | error e => rfl
          | ok c =>
            simp only [show Except.map negl (.ok c : Res (List XReal)) = .ok (negl c) from rfl, ok_bind]
            match c with
            | [_, _, z] => exact intSign_neg z
            | [] => rfl
            | [_] => rfl
            | [_, _] => rfl
            | _ :: _ :: _ :: _ :: _ => rfl

theorem containsPointFn_congr {f g : List XReal → Res XReal} (h : ∀ x, f x = g x) (tol : Tol XReal) (x : List XReal) :
    containsPointFn f tol x = containsPointFn g tol x := by rw [show f = g from funext h]

theorem sumSquaresFn_congr {f g : List XReal → Res XReal} (h : ∀ x, f x = g x) (P : List (List XReal)) :
    sumSquaresFn f P = sumSquaresFn g P := by rw [show f = g from funext h]

/-- **C130** The line with the opposite direction: accepted in the same cases, with the same projections and distances and the same answers
of the predicates, and with opposite sides.  `x`, `y` and the points `P` are arbitrary arrays of floats. -/
theorem C130_line [NeZero n] (p d : E n) {L : Line XReal} (hL : @Line.new XReal ieee (xarr p) (xarr d) = .ok L) :
    ∃ M, @Line.new XReal ieee (xarr p) (xarr (-d)) = .ok M ∧ ∀ (x : List XReal) (P : List (List XReal)) (tol : Tol XReal) (t : XReal) (o : Obj XReal),
      @Line.projectPoint XReal ieee M x = @Line.projectPoint XReal ieee L x ∧
      @Line.projectVector XReal ieee M x = @Line.projectVector XReal ieee L x ∧
      @Line.distancePoint XReal ieee M x = @Line.distancePoint XReal ieee L x ∧
      @Line.containsPoint XReal ieee tol M x = @Line.containsPoint XReal ieee tol L x ∧
      @Line.sumSquares XReal ieee M P = @Line.sumSquares XReal ieee L P ∧
      @Line.isClose XReal ieee tol M o = @Line.isClose XReal ieee tol L o ∧
      @Line.sidePoint XReal ieee M x = (@Line.sidePoint XReal ieee L x).map Neg.neg ∧
      @Line.toPoint XReal ieee M (XReal.neg t) = @Line.toPoint XReal ieee L t := by
  have hM := line_neg (xarr p) (xarr d)
  rw [hL, ← xarr_neg] at hM
  refine ⟨⟨L.point, negl L.direction⟩, hM, fun x P tol t o => ?_⟩
  have h1 : ∀ x, Line.projectPoint ⟨L.point, negl L.direction⟩ x = Line.projectPoint L x := fun x => by
    simp only [Line.projectPoint, project_neg]
  have h2 : ∀ x, Line.distancePoint ⟨L.point, negl L.direction⟩ x = Line.distancePoint L x := fun x => by
    simp only [Line.distancePoint, h1]
  have h3 : ∀ x, Line.containsPoint tol ⟨L.point, negl L.direction⟩ x = Line.containsPoint tol L x := fun x =>
    containsPointFn_congr h2 tol x
  refine ⟨h1 x, project_neg _ _, h2 x, h3 x, sumSquaresFn_congr h2 P, ?_, ?_, ?_⟩
  · cases o with
    | line m => simp only [Line.isClose, h3, isParallel_neg]
    | _ => rfl
  · simp only [Line.sidePoint]
    cases Vec.fromPoints L.point x with
    | error e => rfl
    | ok v => exact side_neg _ _
  · simp only [Line.toPoint, smul_neg_neg]

theorem plane_signed_neg (P : Plane XReal) (x : List XReal) :
    Plane.distancePointSigned ⟨P.point, negl P.normal⟩ x = (Plane.distancePointSigned P x).map XReal.neg := by
  simp only [Plane.distancePointSigned]
  cases Vec.fromPoints P.point x with
  | error e => rfl
  | ok v => exact scalar_neg _ _

/-- **C130** The plane with the opposite normal: accepted in the same cases, with opposite signed distances, sides and coefficients, and otherwise
with the same results. -/
theorem C130_plane [NeZero n] (p d : E n) {A : Plane XReal} (hA : @Plane.new XReal ieee (xarr p) (xarr d) = .ok A) :
    ∃ B, @Plane.new XReal ieee (xarr p) (xarr (-d)) = .ok B ∧ ∀ (x : List XReal) (P : List (List XReal)) (tol : Tol XReal) (L : Line XReal) (o : Obj XReal),
      @Plane.projectPoint XReal ieee B x = @Plane.projectPoint XReal ieee A x ∧
      @Plane.projectVector XReal ieee B x = @Plane.projectVector XReal ieee A x ∧
      @Plane.projectLine XReal ieee tol B L = @Plane.projectLine XReal ieee tol A L ∧
      @Plane.distancePoint XReal ieee B x = @Plane.distancePoint XReal ieee A x ∧
      @Plane.containsPoint XReal ieee tol B x = @Plane.containsPoint XReal ieee tol A x ∧
      @Plane.sumSquares XReal ieee B P = @Plane.sumSquares XReal ieee A P ∧
      @Plane.isClose XReal ieee tol B o = @Plane.isClose XReal ieee tol A o ∧
      @Plane.distancePointSigned XReal ieee B x = (@Plane.distancePointSigned XReal ieee A x).map XReal.neg ∧
      @Plane.sidePoint XReal ieee B x = (@Plane.sidePoint XReal ieee A x).map Neg.neg ∧
      @Plane.cartesian XReal ieee B = (@Plane.cartesian XReal ieee A).map fun c => (c.1.neg, c.2.1.neg, c.2.2.1.neg, c.2.2.2.neg) := by
  have hB := plane_neg (xarr p) (xarr d)
  rw [hA, ← xarr_neg] at hB
  refine ⟨⟨A.point, negl A.normal⟩, hB, fun x P tol L o => ?_⟩
  have h1 : ∀ x, Plane.projectPoint ⟨A.point, negl A.normal⟩ x = Plane.projectPoint A x := fun x => by
    simp only [Plane.projectPoint, project_neg]
  have h2 : ∀ x, Plane.distancePoint ⟨A.point, negl A.normal⟩ x = Plane.distancePoint A x := fun x => by
    simp only [Plane.distancePoint, plane_signed_neg]
    cases Plane.distancePointSigned A x with
    | error e => rfl
    | ok s => exact congrArg Except.ok (abs_neg' s)
  have h3 : ∀ x, Plane.containsPoint tol ⟨A.point, negl A.normal⟩ x = Plane.containsPoint tol A x := fun x =>
    containsPointFn_congr h2 tol x
  have h4 : ∀ x, Plane.projectVector ⟨A.point, negl A.normal⟩ x = Plane.projectVector A x := fun x => by
    simp only [Plane.projectVector, h1]
  refine ⟨h1 x, h4 x, ?_, h2 x, h3 x, sumSquaresFn_congr h2 P, ?_, plane_signed_neg A x, ?_, ?_⟩
  · simp only [Plane.projectLine, isParallel_neg, isPerp_neg, h1, h4]
  · cases o with
    | plane m => simp only [Plane.isClose, h3, isParallel_neg]
    | _ => rfl
  · simp only [Plane.sidePoint, plane_signed_neg]
    cases Plane.distancePointSigned A x with
    | error e => rfl
    | ok s => exact intSign_neg s
  · have hd : Plane.dimension ⟨A.point, negl A.normal⟩ = A.dimension := rfl
    simp only [Plane.cartesian, hd, setDim_neg, dot_neg]
    by_cases h : A.dimension > 3
    · simp only [if_pos h]; rfl
    simp only [if_neg h]
    cases setDimension 3 A.normal with
    | error e => rfl
    | ok m =>
      simp only [show Except.map negl (.ok m : Res (List XReal)) = .ok (negl m) from rfl, ok_bind]
      cases dot A.normal A.point with
      | error e => rfl
      | ok t =>
        match m with
        | [a, b, c] => rfl
        | [] => rfl
        | [_] => rfl
        | [_, _] => rfl
        | _ :: _ :: _ :: _ :: _ => rfl

theorem mapM_map_res {α β γ : Type} (f : α → Res β) (g : β → γ) (l : List α) :
    (l.mapM fun v => (f v).map g) = (l.mapM f).map (List.map g) := by
  induction l with
  | nil => rfl
  | cons x l ih =>
    rw [List.mapM_cons, List.mapM_cons, ih]
    cases f x with
    | error e => rfl
    | ok y =>
      simp only [ok_bind, show Except.map g (.ok y : Res β) = .ok (g y) from rfl]
      cases l.mapM f <;> rfl

theorem mapM_of_map {α β γ : Type} (f : β → Res γ) (g : α → β) (l : List α) : (l.map g).mapM f = l.mapM fun v => f (g v) := by
  induction l with
  | nil => rfl
  | cons x l ih => rw [List.map_cons, List.mapM_cons, List.mapM_cons, ih]

theorem dots_neg (vs : List (List XReal)) (u : List XReal) :
    (vs.mapM fun v => dot v (negl u)) = (vs.mapM fun v => dot v u).map (List.map XReal.neg) := by
  rw [← mapM_map_res]
  congr 1
  funext v
  exact dot_neg' v u

/-- **C130** Batches: the methods for several points, for the opposite direction and the opposite normal. -/
theorem C130_batch [NeZero n] (p d : E n) {L : Line XReal} {A : Plane XReal} (hL : @Line.new XReal ieee (xarr p) (xarr d) = .ok L)
    (hA : @Plane.new XReal ieee (xarr p) (xarr d) = .ok A) :
    ∃ M B, @Line.new XReal ieee (xarr p) (xarr (-d)) = .ok M ∧ @Plane.new XReal ieee (xarr p) (xarr (-d)) = .ok B ∧ ∀ P : List (List XReal),
      @Line.projectPoints XReal ieee M P = @Line.projectPoints XReal ieee L P ∧
      @Line.distancePoints XReal ieee M P = @Line.distancePoints XReal ieee L P ∧
      @Plane.projectPoints XReal ieee B P = @Plane.projectPoints XReal ieee A P ∧
      @Plane.distancePoints XReal ieee B P = @Plane.distancePoints XReal ieee A P ∧
      @Plane.distancePointsSigned XReal ieee B P = (@Plane.distancePointsSigned XReal ieee A P).map (List.map XReal.neg) := by
  have hM := line_neg (xarr p) (xarr d)
  rw [hL, ← xarr_neg] at hM
  have hB := plane_neg (xarr p) (xarr d)
  rw [hA, ← xarr_neg] at hB
  refine ⟨_, _, hM, hB, fun P => ?_⟩
  have h1 : Line.projectPoints ⟨L.point, negl L.direction⟩ P = Line.projectPoints L P := by
    simp only [Line.projectPoints, unit_neg]
    cases checkRows P with
    | error e => rfl
    | ok _ =>
      simp only [ok_bind]
      cases P.mapM fun p => vsub p L.point with
      | error e => rfl
      | ok vs =>
        simp only [ok_bind]
        cases Vec.unit L.direction with
        | error e => rfl
        | ok u =>
          simp only [show Except.map negl (.ok u : Res (List XReal)) = .ok (negl u) from rfl, ok_bind, dots_neg]
          cases vs.mapM fun v => dot v u with
          | error e => rfl
          | ok ds =>
            simp only [show Except.map (List.map XReal.neg) (.ok ds : Res (List XReal)) = .ok (ds.map XReal.neg) from rfl, ok_bind, mapM_of_map,
              smul_neg_neg]
  have h2 : Plane.distancePointsSigned ⟨A.point, negl A.normal⟩ P = (Plane.distancePointsSigned A P).map (List.map XReal.neg) := by
    simp only [Plane.distancePointsSigned, unit_neg]
    cases checkRows P with
    | error e => rfl
    | ok _ =>
      simp only [ok_bind]
      cases P.mapM fun p => vsub p A.point with
      | error e => rfl
      | ok vs =>
        simp only [ok_bind]
        cases Vec.unit A.normal with
        | error e => rfl
        | ok u =>
          simp only [show Except.map negl (.ok u : Res (List XReal)) = .ok (negl u) from rfl, ok_bind, dots_neg]
  refine ⟨h1, ?_, ?_, ?_, h2⟩
  · simp only [Line.distancePoints, h1]
  · simp only [Plane.projectPoints, unit_neg]
    cases checkRows P with
    | error e => rfl
    | ok _ =>
      simp only [ok_bind]
      cases P.mapM fun p => vsub A.point p with
      | error e => rfl
      | ok vs =>
        simp only [ok_bind]
        cases Vec.unit A.normal with
        | error e => rfl
        | ok u =>
          simp only [show Except.map negl (.ok u : Res (List XReal)) = .ok (negl u) from rfl, ok_bind, dots_neg]
          cases vs.mapM fun v => dot v u with
          | error e => rfl
          | ok ds =>
            simp only [show Except.map (List.map XReal.neg) (.ok ds : Res (List XReal)) = .ok (ds.map XReal.neg) from rfl, ok_bind,
              List.zip_map_left, mapM_of_map, Prod.map, smul_neg_neg, id]
  · simp only [Plane.distancePoints, h2]
    cases Plane.distancePointsSigned A P with
    | error e => rfl
    | ok ds =>
      refine congrArg Except.ok ?_
      rw [List.map_map]
      exact List.map_congr_left fun x _ => abs_neg' x

/-- **C130** The segment with the end points exchanged contains the same points. -/
theorem C130_segment [NeZero n] (a b x : E n) (tol : Tol XReal) :
    @LineSegment.containsPoint XReal ieee tol ⟨xarr b, xarr a⟩ (xarr x) = @LineSegment.containsPoint XReal ieee tol ⟨xarr a, xarr b⟩ (xarr x) := by
  have hv : ∀ a x : E n, ∃ l, Vec.fromPoints (xarr x) (xarr a) = new1D l ∧ l.length = n := fun a x => by
    refine ⟨List.zipWith PyNum.sub (xarr a) (xarr x), ?_, by simp⟩
    simp [Vec.fromPoints, vsub, broadcast2]
  have hn : ∀ {l : List XReal}, l.length = n → new1D l = .ok l ∨ new1D l = .error (.valueError "The values must all be finite.") := fun {l} h => by
    have : l.length ≠ 0 := by rw [h]; exact NeZero.ne n
    simp only [new1D, if_neg this]
    split_ifs
    · right; rfl
    · left; rfl
  obtain ⟨u, hu, lu⟩ := hv a x
  obtain ⟨v, hv, lv⟩ := hv b x
  simp only [LineSegment.containsPoint, hu, hv]
  rcases hn lu with h1 | h1 <;> rcases hn lv with h2 | h2
  · simp only [h1, h2, ok_bind]
    rw [cosine_comm h1 h2]
    cases k1 : Vec.isZero tol u with
    | error e => rw [isZero_error k1]
    | ok z1 =>
      cases k2 : Vec.isZero tol v with
      | error e => rw [isZero_error k2] at k1; cases k1
      | ok z2 => cases z1 <;> cases z2 <;> rfl
  · simp only [h1, h2]; rfl
  · simp only [h1, h2]; rfl
  · simp only [h1, h2]

/-- **C130** `area_triangle(a, b, c)` and `area_triangle(a, c, b)`, `volume_tetrahedron(a, b, c, d)` and `volume_tetrahedron(a, b, d, c)`. -/
theorem C130_measures [NeZero n] (a b c d : E n) :
    @Measurement.areaTriangle XReal ieee (xarr a) (xarr c) (xarr b) = @Measurement.areaTriangle XReal ieee (xarr a) (xarr b) (xarr c) ∧
    @Measurement.volumeTetrahedron XReal ieee (xarr a) (xarr b) (xarr d) (xarr c) =
      @Measurement.volumeTetrahedron XReal ieee (xarr a) (xarr b) (xarr c) (xarr d) := by
  have hv : ∀ b : E n, (∃ v, Vec.fromPoints (xarr a) (xarr b) = .ok v ∧ new1D v = .ok v) ∨
      Vec.fromPoints (xarr a) (xarr b) = .error (.valueError "The values must all be finite.") := fun b => by
    have h0 : (List.zipWith PyNum.sub (xarr b) (xarr a)).length ≠ 0 := by simp [NeZero.ne n]
    have h1 : Vec.fromPoints (xarr a) (xarr b) = new1D (List.zipWith PyNum.sub (xarr b) (xarr a)) := by
      simp [Vec.fromPoints, vsub, broadcast2]
    rw [h1]
    by_cases h2 : (List.zipWith PyNum.sub (xarr b) (xarr a)).all PyNum.isFinite = true
    · left
      have h3 : new1D (List.zipWith PyNum.sub (xarr b) (xarr a)) = .ok (List.zipWith PyNum.sub (xarr b) (xarr a)) := by
        unfold new1D
        rw [if_neg h0, h2]
        rfl
      exact ⟨_, h3, h3⟩
    · right
      rw [Bool.not_eq_true] at h2
      unfold new1D
      rw [if_neg h0, h2]
      rfl
  constructor
  · simp only [Measurement.areaTriangle]
    rcases hv b with ⟨u, u1, u2⟩ | u1 <;> rcases hv c with ⟨v, v1, v2⟩ | v1
    · simp only [u1, v1, ok_bind]
      rw [cross_comm u2 v2]
      cases Vec.cross u v with
      | error e => rfl
      | ok w => exact congrArg (fun t => Except.ok (half *. t)) (normv_neg w)
    · simp only [u1, v1]; rfl
    · simp only [u1, v1]; rfl
    · simp only [u1, v1]
  · simp only [Measurement.volumeTetrahedron]
    cases Vec.fromPoints (xarr a) (xarr b) with
    | error e => rfl
    | ok w =>
      simp only [ok_bind]
      rcases hv c with ⟨u, u1, u2⟩ | u1 <;> rcases hv d with ⟨v, v1, v2⟩ | v1
      · simp only [u1, v1, ok_bind]
        rw [cross_comm u2 v2]
        cases Vec.cross u v with
        | error e => rfl
        | ok x =>
          simp only [show Except.map negl (.ok x : Res (List XReal)) = .ok (negl x) from rfl, ok_bind]
          cases setDimension 3 w with
          | error e => rfl
          | ok w3 =>
            simp only [ok_bind, dot_neg']
            cases dot w3 x with
            | error e => rfl
            | ok t =>
              refine congrArg Except.ok ?_
              rw [abs_neg']
      · simp only [u1, v1]; rfl
      · simp only [u1, v1]; rfl
      · simp only [u1, v1]

/-! ### The hypotheses can be met, also by numbers that overflow -/

/-- A line and a plane with the direction `(2⁶⁰⁰, 1)`, whose square overflows, are accepted. -/
example : ∃ (L : Line XReal) (A : Plane XReal), @Line.new XReal ieee (xarr (vec2 1 1)) (xarr (vec2 ((2 : ℝ) ^ (600 : ℤ)) 1)) = .ok L ∧
    @Plane.new XReal ieee (xarr (vec2 1 1)) (xarr (vec2 ((2 : ℝ) ^ (600 : ℤ)) 1)) = .ok A ∧
    @Vec.norm XReal ieee (xarr (vec2 ((2 : ℝ) ^ (600 : ℤ)) 1)) = posInf := by
  have h : (2 : ℝ) ^ (512 : ℤ) ≤ |(vec2 ((2 : ℝ) ^ (600 : ℤ)) 1 : E 2) 0| := by
    rw [show (vec2 ((2 : ℝ) ^ (600 : ℤ)) 1 : E 2) 0 = (2 : ℝ) ^ (600 : ℤ) from rfl, abs_of_pos (by positivity)]
    exact zpow_le_zpow_right₀ (by norm_num) (by norm_num)
  exact ⟨_, _, (C97_constructors_accept h).1, (C97_constructors_accept h).2, (C97_vector_overflow h).1⟩

end SkSpatial
