import Verif.Props.Heap
import Verif.Props.Plane
import Verif.Model.HeapMethods
/-!
# Which memory the results of methods refer to (C87)
-/

namespace SkSpatial
namespace Mem
section
variable {K : Type} [PyNum K]

theorem arrayAt_of_value {s : State K} {j i : Nat} {x : NDArray K} (h : s.value j i = some (x.shape, x.data)) :
    s.arrayAt (j, i) = .ok x := by
  unfold State.value at h
  unfold State.arrayAt
  split at h
  · rename_i vs heq
    rw [heq]
    rcases hv : vs[i]? with _ | v
    · rw [hv] at h; cases h
    · rw [hv] at h
      simp only [Option.map_some, Option.some.injEq, Prod.mk.injEq] at h
      simp only [hv]
      rw [h.1, h.2]
  · cases h

theorem mapM_arrayAt {s : State K} {args : List (Nat × Nat)} {xs : List (NDArray K)}
    (h : List.Forall₂ (fun ji x => s.value ji.1 ji.2 = some (x.shape, x.data)) args xs) :
    args.mapM s.arrayAt = .ok xs := by
  induction h with
  | nil => rfl
  | cons h1 _ ih => rw [List.mapM_cons, arrayAt_of_value h1, ih]; rfl

/-- A method that computes a new array: its result has the computed values and shares memory with no earlier
object, and no earlier object is changed — whatever the history and whichever arrays it reads, even if they
overlap in memory. -/
theorem C87_method_result (h : List (Op K)) (f : List (NDArray K) → Res (NDArray K)) {args : List (Nat × Nat)}
    {xs : List (NDArray K)} {c : NDArray K}
    (hx : List.Forall₂ (fun ji x => (after h).value ji.1 ji.2 = some (x.shape, x.data)) args xs) (hf : f xs = .ok c) :
    IsArray (after (h ++ [.call f args])) h.length c.shape c.data ∧
    ∀ j < h.length, ∀ i, (after (h ++ [.call f args])).value j i = (after h).value j i ∧
      ¬ Share (h ++ [.call f args]) h.length 0 j i := by
  have he : (after h).effect (after h).objs.length (.call f args)
      = .ok (setBuf (after h).mem ((after h).objs.length, 0) c.data,
          [fresh ((after h).objs.length, 0) c.shape c.data.length]) := by
    simp only [State.effect, mapM_arrayAt hx, ok_bind, hf, pure_ok]
  have hst := step_ok he
  rw [← after_snoc] at hst
  refine ⟨isArray_iff.mpr ⟨fresh ((after h).objs.length, 0) c.shape c.data.length, ?_, rfl, ?_⟩, ?_⟩
  · rw [hst]; simp [← len_after h]
  · rw [hst]; exact read_fresh _ _ _ _ _
  · intro j hj i
    exact ⟨C68_frame h _ hj i (by simp [target]), (C68_copy_is_fresh h (op := .call f args) trivial hj i).1⟩

/-- A method that raises changes nothing. -/
theorem C87_method_raises (h : List (Op K)) (f : List (NDArray K) → Res (NDArray K)) {args : List (Nat × Nat)}
    {xs : List (NDArray K)} {e : Err}
    (hx : List.Forall₂ (fun ji x => (after h).value ji.1 ji.2 = some (x.shape, x.data)) args xs) (hf : f xs = .error e) :
    (∀ i, (after (h ++ [.call f args])).value h.length i = none) ∧
    ∀ j < h.length, ∀ i, (after (h ++ [.call f args])).value j i = (after h).value j i := by
  have he : (after h).effect (after h).objs.length (.call f args) = .error e := by
    simp only [State.effect, mapM_arrayAt hx, ok_bind, hf]; rfl
  have hst := step_error he
  rw [← after_snoc] at hst
  refine ⟨fun i => ?_, fun j hj i => C68_frame h _ hj i (by simp [target])⟩
  rw [hst]
  simp [State.value, ← len_after h]

/-- Two stored arrays, built from two existing ones. -/
theorem build2 (h : List (Op K)) {check : List (List K) → Res Unit} {j k : Nat} {sh sh' : List Nat} {u w : List K}
    {b b' : NDArray K}
    (hj : IsArray (after h) j sh u) (hk : IsArray (after h) k sh' w) (hu : newArray1D ⟨sh, u⟩ = .ok b)
    (hw : newArray1D ⟨sh', w⟩ = .ok b') (hc : check [u, w] = .ok ()) :
    (after (h ++ [.build check [.obj j, .obj k]])).value h.length 0 = some (sh, u) ∧
    (after (h ++ [.build check [.obj j, .obj k]])).value h.length 1 = some (sh', w) ∧
    (after (h ++ [.build check [.obj j, .obj k]])).value h.length 2 = none := by
  obtain ⟨v, ho, rfl, rfl⟩ := isArray_iff.mp hj
  obtain ⟨v', ho', rfl, rfl⟩ := isArray_iff.mp hk
  have hv := view_of_objs ho
  have hv' := view_of_objs ho'
  have he : (after h).effect (after h).objs.length (.build check [.obj j, .obj k]) = .ok ((after h).mem, [v, v']) := by
    simp [State.effect, State.newList, State.new1D, State.eval, State.asarray, hv, hv', hu, hw, hc]
  have hst := step_ok he
  rw [← after_snoc] at hst
  have hon : (after (h ++ [.build check [.obj j, .obj k]])).objs[h.length]? = some (Except.ok [v, v']) := by
    rw [hst]; simp [← len_after h]
  rw [value_eq hon, value_eq hon, value_eq hon, hst]
  exact ⟨rfl, rfl, rfl⟩

theorem share_build (h : List (Op K)) {check : List (List K) → Res Unit} {xs : List (Src K)} {i j : Nat}
    (hi : xs[i]? = some (.obj j)) {a : Addr} (hr : region h j 0 = some a) :
    region (h ++ [.build check xs]) h.length i = some a := by
  have e : regions (h ++ [.build check xs]) = regions h ++ [opRegions (regions h) (.build check xs)] := by simp [regions]
  unfold region at hr ⊢
  rw [e, List.getD, List.getElem?_append_right (by rw [regions_length]), regions_length]
  simp only [Nat.sub_self, List.getElem?_cons_zero, Option.getD_some, opRegions, List.getElem?_mapIdx, hi, Option.map_some,
    srcRegion]
  congr 1
  rcases hl : (regions h).getD j [] with _ | ⟨b, bs⟩
  · rw [hl] at hr; simp at hr
  · rw [hl] at hr; simpa using hr

theorem region_of_value {h : List (Op K)} {j i : Nat} {x} (hv : (after h).value j i = some x) :
    ∃ a, region h j i = some a := by
  unfold State.value at hv
  split at hv
  · rename_i vs heq
    rcases hw : vs[i]? with _ | v
    · rw [hw] at hv; cases hv
    · exact ⟨_, region_of_view heq hw⟩
  · cases hv

end

/-! ### `Line.from_points` -/

variable {n : ℕ} [NeZero n]

theorem newArray1D_arr (x : E n) : newArray1D (⟨[n], arr x⟩ : NDArray ℝ) = .ok ⟨[n], arr x⟩ := by
  simp [newArray1D, newArray, NDArray.ndim, NDArray.size, NeZero.ne]

theorem checkLine_arr (p : E n) {d : E n} (hd : d ≠ 0) : checkLine [arr p, arr d] = .ok () := by
  simp [checkLine, Line.new_arr p hd]

/-- The last two operations of a method returning a line: an array is computed, and a line is built. -/
theorem keep {K : Type} [PyNum K] {h : List (Op K)} {op : Op K} {j : Nat} {sh : List Nat} {v : List K} (ho : target op = none)
    (hj : IsArray (after h) j sh v) : IsArray (after (h ++ [op])) j sh v := by
  have hl : j < h.length := by
    obtain ⟨w, hw, -⟩ := isArray_iff.mp hj
    rw [← len_after h]; exact lt_of_objs hw
  exact ⟨(C68_frame h op hl 0 (by simp [ho])).trans hj.1, (C68_frame h op hl 1 (by simp [ho])).trans hj.2⟩

theorem isArray_lt {K : Type} [PyNum K] {h : List (Op K)} {j : Nat} {sh : List Nat} {v : List K}
    (hj : IsArray (after h) j sh v) : j < h.length := by
  obtain ⟨w, hw, -⟩ := isArray_iff.mp hj
  rw [← len_after h]; exact lt_of_objs hw

/-- `L = Line.from_points(a, b)`, for arrays `a`, `b` (objects `j`, `k`) holding different points `p`, `q`: the line
has point `p` and direction `q - p`; `L.point` *is* `a` (whatever later happens to one happens to the other);
`L.direction` shares memory with no earlier object; and no earlier object has changed. -/
theorem C87_line_from_points (h : List (Op ℝ)) {j k : Nat} {p q : E n} (hj : IsArray (after h) j [n] (arr p))
    (hk : IsArray (after h) k [n] (arr q)) (hpq : p ≠ q) :
    (after (h ++ lineFromPointsOps h.length j k)).value (h.length + 1) 0 = some ([n], arr p) ∧
    (after (h ++ lineFromPointsOps h.length j k)).value (h.length + 1) 1 = some ([n], arr (q - p)) ∧
    (∀ h', (after (h ++ lineFromPointsOps h.length j k ++ h')).value (h.length + 1) 0
      = (after (h ++ lineFromPointsOps h.length j k ++ h')).value j 0) ∧
    (∀ m < h.length, ∀ i, ¬ Share (h ++ lineFromPointsOps h.length j k) m i (h.length + 1) 1) ∧
    (∀ m < h.length, ∀ i, (after (h ++ lineFromPointsOps h.length j k)).value m i = (after h).value m i) := by
  have hd : q - p ≠ 0 := sub_ne_zero.mpr (Ne.symm hpq)
  have hf : vectorFromPointsFn [⟨[n], arr p⟩, ⟨[n], arr q⟩] = .ok ⟨[n], arr (q - p)⟩ := by
    simp [vectorFromPointsFn]
  obtain ⟨c1, c2⟩ := C87_method_result h vectorFromPointsFn (args := [(j, 0), (k, 0)])
    (xs := [⟨[n], arr p⟩, ⟨[n], arr q⟩]) (List.Forall₂.cons hj.1 (List.Forall₂.cons hk.1 List.Forall₂.nil)) hf
  obtain ⟨op1, hop⟩ : ∃ op : Op ℝ, op = .call vectorFromPointsFn [(j, 0), (k, 0)] := ⟨_, rfl⟩
  have hj' : IsArray (after (h ++ [op1])) j [n] (arr p) := keep (by rw [hop]; rfl) hj
  rw [← hop] at c1 c2
  have hl : (h ++ [op1]).length = h.length + 1 := by simp
  obtain ⟨b1, b2, -⟩ := build2 (h ++ [op1]) hj' c1 (newArray1D_arr p) (newArray1D_arr (q - p)) (checkLine_arr p hd)
  rw [hl] at b1 b2
  have he : h ++ lineFromPointsOps h.length j k = h ++ [op1] ++ [.build checkLine [.obj j, .obj h.length]] := by
    rw [hop, List.append_assoc]; rfl
  rw [he]
  refine ⟨b1, b2, fun h' => ?_, fun m hm i => ?_, fun m hm i => ?_⟩
  · have := C68_fields_alias (h ++ [op1]) (check := checkLine) (xs := [.obj j, .obj h.length]) (i := 0) (j := j) rfl
      (by rw [hl, b1]; simp) h'
    rwa [hl] at this
  · rintro ⟨a, h1, h2⟩
    obtain ⟨a', ha'⟩ := region_of_value c1.1
    have h3 := share_build (h ++ [op1]) (check := checkLine) (xs := [.obj j, .obj h.length]) (i := 1) (j := h.length) rfl ha'
    rw [hl, h2] at h3
    rw [region_prefix (by simp; omega)] at h1
    exact (c2 m hm i).2 ⟨a', ha', by rw [h1, Option.some.inj h3]⟩
  · rw [C68_frame (h ++ [op1]) _ (by simp; omega) i (by simp [target]), (c2 m hm i).1]

/-- Afterwards, nothing written through an array that does not share memory with `a` and existed before changes
the line: in particular `b` can be reused freely. -/
theorem C87_line_from_points_second (h : List (Op ℝ)) {j k : Nat} {p q : E n} (hj : IsArray (after h) j [n] (arr p))
    (hk : IsArray (after h) k [n] (arr q)) (hpq : p ≠ q) (hs : ¬ Share h k 0 j 0) (x : ℝ) :
    (after (h ++ lineFromPointsOps h.length j k ++ [.fill k x])).value (h.length + 1) 0 = some ([n], arr p) ∧
    (after (h ++ lineFromPointsOps h.length j k ++ [.fill k x])).value (h.length + 1) 1 = some ([n], arr (q - p)) := by
  obtain ⟨a1, a2, a3, a4, a5⟩ := C87_line_from_points h hj hk hpq
  have hjl := isArray_lt hj
  have hkl := isArray_lt hk
  have hlen : (h ++ lineFromPointsOps (K := ℝ) h.length j k).length = h.length + 2 := by simp [lineFromPointsOps]
  constructor
  · rw [a3 [.fill k x], C68_frame _ _ (by rw [hlen]; omega) 0, a5 j hjl, hj.1]
    rintro t ht ⟨a, h1, h2⟩
    cases ht
    rw [region_prefix hkl] at h1
    rw [region_prefix hjl] at h2
    exact hs ⟨a, h1, h2⟩
  · rw [C68_frame _ _ (by rw [hlen]; omega) 1, a2]
    rintro t ht hsh
    cases ht
    exact a4 k hkl 0 hsh

/-- The first point cannot: `a[:] = x` moves the line. -/
theorem C87_line_from_points_first (h : List (Op ℝ)) {j k : Nat} {p q : E n} (hj : IsArray (after h) j [n] (arr p))
    (hk : IsArray (after h) k [n] (arr q)) (hpq : p ≠ q) (x : ℝ) :
    (after (h ++ lineFromPointsOps h.length j k ++ [.fill j x])).value (h.length + 1) 0 = some ([n], List.replicate n x) := by
  obtain ⟨a1, a2, a3, a4, a5⟩ := C87_line_from_points h hj hk hpq
  have hjl := isArray_lt hj
  rw [a3]
  have h1 : IsArray (after (h ++ lineFromPointsOps h.length j k)) j [n] (arr p) :=
    ⟨(a5 j hjl 0).trans hj.1, (a5 j hjl 1).trans hj.2⟩
  have := (C68_fill _ x h1).1
  simpa using this

/-! ### `Plane.project_line` and `Triangle.line` -/

theorem field_step {K : Type} [PyNum K] (h : List (Op K)) {j i : Nat} {sh : List Nat} {v : List K}
    (hv : (after h).value j i = some (sh, v)) : IsArray (after (h ++ [.field j i])) h.length sh v := by
  have hne : (after h).value j i ≠ none := by rw [hv]; simp
  have hj : j < h.length := by
    by_contra hlt
    apply hne
    have : (after h).objs[j]? = none := List.getElem?_eq_none_iff.mpr (by rw [len_after]; omega)
    unfold State.value; rw [this]
  have ha := C68_attribute_is_field h hne []
  rw [List.append_nil, C68_frame h _ hj i (by simp [target]), hv] at ha
  refine ⟨ha, ?_⟩
  rcases he : (after h).effect (after h).objs.length (.field j i) with e | ⟨m, vs⟩
  · have hst := step_error he
    rw [← after_snoc] at hst
    rw [hst, ← len_after h]; simp [State.value]
  · have hst := step_ok he
    rw [← after_snoc] at hst
    rw [hst, ← len_after h]
    have hone : vs.length = 1 := by
      simp only [State.effect] at he
      split at he
      · split at he
        · cases he; rfl
        · cases he
      · cases he
    have hnone : vs[1]? = none := List.getElem?_eq_none_iff.mpr (by omega)
    simp [State.value, hnone]

theorem value_lt {K : Type} [PyNum K] {h : List (Op K)} {j i : Nat} {x} (hv : (after h).value j i = some x) :
    j < h.length := by
  obtain ⟨a, ha⟩ := region_of_value hv
  exact region_lt ha

/-- `R = plane.project_line(line)` for a plane (object `P`, point `p`, normal `m`) and a line (object `L`, point `q`,
direction `d`) that is not accepted as perpendicular to the plane: the values of `R` (object `h.length + 2`) are those
of `project_line` (see C37), and no earlier object has changed.  `R.point` shares memory with no earlier object.
If the line is accepted as parallel to the plane, `R.direction` *is* `line.direction`, for ever; otherwise it shares
memory with no earlier object. -/
theorem C87_project_line (h : List (Op ℝ)) {P L : Nat} {p m q d : E n} {tol : Tol ℝ} (ht : tol.Nonneg)
    (hp : (after h).value P 0 = some ([n], arr p)) (hm : (after h).value P 1 = some ([n], arr m))
    (hq : (after h).value L 0 = some ([n], arr q)) (hd : (after h).value L 1 = some ([n], arr d))
    {pl : Plane ℝ} {ln R : Line ℝ} (hpl : Plane.new (arr p) (arr m) = .ok pl) (hln : Line.new (arr q) (arr d) = .ok ln)
    (hR : pl.projectLine tol ln = .ok R) :
    ∃ ops, projectLineOps tol (after h) h.length P L = .ok ops ∧ ops.length = 3 ∧
      (after (h ++ ops)).value (h.length + 2) 0 = some ([n], R.point) ∧
      (after (h ++ ops)).value (h.length + 2) 1 = some ([n], R.direction) ∧
      (∀ k < h.length, ∀ i, (after (h ++ ops)).value k i = (after h).value k i) ∧
      (∀ k < h.length, ∀ i, ¬ Share (h ++ ops) k i (h.length + 2) 0) ∧
      (Close tol (inner ℝ m d) 0 → ∀ h', (after (h ++ ops ++ h')).value (h.length + 2) 1 = (after (h ++ ops ++ h')).value L 1) ∧
      (¬ Close tol (inner ℝ m d) 0 → ∀ k < h.length, ∀ i, ¬ Share (h ++ ops) k i (h.length + 2) 1) := by
  obtain ⟨-, hm0, rfl⟩ := Plane.new_ok hpl
  obtain ⟨-, hd0, rfl⟩ := Line.new_ok hln
  have hLl := value_lt hd
  have hPl := value_lt hm
  have a1 : (after h).arrayAt (P, 1) = .ok ⟨[n], arr m⟩ := arrayAt_of_value hm
  have a2 : (after h).arrayAt (L, 1) = .ok ⟨[n], arr d⟩ := arrayAt_of_value hd
  have hnp : ¬ ParallelTol tol m d := by
    intro hpar
    simp [Plane.projectLine, isParallel_arr ht, hpar] at hR
  -- the projected point
  obtain ⟨q', hq'⟩ : ∃ q', Plane.projectPoint ⟨arr p, arr m⟩ (arr q) = .ok (arr q') := ⟨_, Plane.projectPoint_arr _ _ _⟩
  have hf : planeProjectPointFn [⟨[n], arr p⟩, ⟨[n], arr m⟩, ⟨[n], arr q⟩] = .ok ⟨[n], arr q'⟩ := by
    simp [planeProjectPointFn, hq']
  obtain ⟨c1, c2⟩ := C87_method_result h planeProjectPointFn (args := [(P, 0), (P, 1), (L, 0)])
    (xs := [⟨[n], arr p⟩, ⟨[n], arr m⟩, ⟨[n], arr q⟩])
    (List.Forall₂.cons hp (List.Forall₂.cons hm (List.Forall₂.cons hq List.Forall₂.nil))) hf
  obtain ⟨op1, hop⟩ : ∃ op : Op ℝ, op = .call planeProjectPointFn [(P, 0), (P, 1), (L, 0)] := ⟨_, rfl⟩
  rw [← hop] at c1 c2
  have hl1 : (h ++ [op1]).length = h.length + 1 := by simp
  -- whatever the second array is
  have main : ∀ (op2 : Op ℝ) (d' : E n), target op2 = none → IsArray (after (h ++ [op1] ++ [op2])) (h.length + 1) [n] (arr d') →
      d' ≠ 0 →
      (after (h ++ [op1] ++ [op2] ++ [.build checkLine [.obj h.length, .obj (h.length + 1)]])).value (h.length + 2) 0
        = some ([n], arr q') ∧
      (after (h ++ [op1] ++ [op2] ++ [.build checkLine [.obj h.length, .obj (h.length + 1)]])).value (h.length + 2) 1
        = some ([n], arr d') ∧
      (∀ k < h.length, ∀ i, (after (h ++ [op1] ++ [op2] ++ [.build checkLine [.obj h.length, .obj (h.length + 1)]])).value k i
        = (after h).value k i) ∧
      (∀ k < h.length, ∀ i, ¬ Share (h ++ [op1] ++ [op2] ++ [.build checkLine [.obj h.length, .obj (h.length + 1)]])
        k i (h.length + 2) 0) := by
    intro op2 d' ht2 hd' hdn
    have hl2 : (h ++ [op1] ++ [op2]).length = h.length + 2 := by simp
    have hq2 : IsArray (after (h ++ [op1] ++ [op2])) h.length [n] (arr q') := keep ht2 c1
    obtain ⟨b1, b2, -⟩ := build2 (h ++ [op1] ++ [op2]) hq2 hd' (newArray1D_arr q') (newArray1D_arr d') (checkLine_arr q' hdn)
    rw [hl2] at b1 b2
    refine ⟨b1, b2, fun k hk i => ?_, fun k hk i => ?_⟩
    · rw [C68_frame _ _ (by rw [hl2]; omega) i (by simp [target]), C68_frame _ op2 (by rw [hl1]; omega) i (by simp [ht2]),
        (c2 k hk i).1]
    · rintro ⟨a, h1, h2⟩
      obtain ⟨a', ha'⟩ := region_of_value c1.1
      have ha2 : region (h ++ [op1] ++ [op2]) h.length 0 = some a' := by rw [region_prefix (by rw [hl1]; omega), ha']
      have h3 := share_build (h ++ [op1] ++ [op2]) (check := checkLine) (xs := [.obj h.length, .obj (h.length + 1)]) (i := 0)
        (j := h.length) rfl ha2
      rw [hl2, h2] at h3
      rw [region_prefix (by rw [hl2]; omega), region_prefix (by rw [hl1]; omega)] at h1
      exact (c2 k hk i).2 ⟨a', ha', by rw [h1, Option.some.inj h3]⟩
  by_cases hc : Close tol (inner ℝ m d) 0
  · have hops : projectLineOps tol (after h) h.length P L = .ok [op1, .field L 1, .build checkLine [.obj h.length, .obj (h.length + 1)]] := by
      simp [projectLineOps, a1, a2, isParallel_arr ht, hnp, isPerpendicular_arr ht, hc, hop]
    have hRR : R = ⟨arr q', arr d⟩ := by
      simp [Plane.projectLine, isParallel_arr ht, hnp, isPerpendicular_arr ht, hc, hq', Line.new_arr _ hd0] at hR
      exact hR.symm
    have hv1 : (after (h ++ [op1])).value L 1 = some ([n], arr d) := ((c2 L hLl 1).1).trans hd
    have hfs := field_step (h ++ [op1]) hv1
    rw [hl1] at hfs
    obtain ⟨m1, m2, m3, m4⟩ := main (.field L 1) d rfl hfs hd0
    have he : h ++ [op1, Op.field L 1, .build checkLine [.obj h.length, .obj (h.length + 1)]]
        = h ++ [op1] ++ [Op.field L 1] ++ [.build checkLine [.obj h.length, .obj (h.length + 1)]] := by simp
    refine ⟨_, hops, rfl, ?_⟩
    rw [he, hRR]
    refine ⟨m1, m2, m3, m4, fun _ h' => ?_, fun h0 => absurd hc h0⟩
    have hl2 : (h ++ [op1] ++ [Op.field L 1]).length = h.length + 2 := by simp
    have e1 := C68_fields_alias (h ++ [op1] ++ [.field L 1]) (check := checkLine)
      (xs := [.obj h.length, .obj (h.length + 1)]) (i := 1) (j := h.length + 1) rfl (by rw [hl2, m2]; simp) h'
    have e2 := C68_attribute_is_field (h ++ [op1]) (j := L) (i := 1) (by rw [hv1]; simp)
      ([.build checkLine [.obj h.length, .obj (h.length + 1)]] ++ h')
    rw [hl2] at e1
    rw [hl1, ← List.append_assoc] at e2
    rw [e1, e2]
  · obtain ⟨d', hd'⟩ : ∃ d', Plane.projectVector ⟨arr p, arr m⟩ (arr d) = .ok (arr d') := ⟨_, Plane.projectVector_arr _ _ _⟩
    have hops : projectLineOps tol (after h) h.length P L = .ok [op1, .call planeProjectVectorFn [(P, 0), (P, 1), (L, 1)],
        .build checkLine [.obj h.length, .obj (h.length + 1)]] := by
      simp [projectLineOps, a1, a2, isParallel_arr ht, hnp, isPerpendicular_arr ht, hc, hop]
    have hRR : Line.new (arr q') (arr d') = .ok R := by
      simpa [Plane.projectLine, isParallel_arr ht, hnp, isPerpendicular_arr ht, hc, hq', hd'] using hR
    obtain ⟨-, hdn, rfl⟩ := Line.new_ok hRR
    have hf2 : planeProjectVectorFn [⟨[n], arr p⟩, ⟨[n], arr m⟩, ⟨[n], arr d⟩] = .ok ⟨[n], arr d'⟩ := by
      simp [planeProjectVectorFn, hd']
    obtain ⟨g1, g2⟩ := C87_method_result (h ++ [op1]) planeProjectVectorFn (args := [(P, 0), (P, 1), (L, 1)])
      (xs := [⟨[n], arr p⟩, ⟨[n], arr m⟩, ⟨[n], arr d⟩])
      (List.Forall₂.cons ((c2 P hPl 0).1.trans hp) (List.Forall₂.cons ((c2 P hPl 1).1.trans hm)
        (List.Forall₂.cons ((c2 L hLl 1).1.trans hd) List.Forall₂.nil))) hf2
    obtain ⟨op2, hop2⟩ : ∃ op : Op ℝ, op = .call planeProjectVectorFn [(P, 0), (P, 1), (L, 1)] := ⟨_, rfl⟩
    rw [← hop2] at g1 g2 hops
    rw [hl1] at g1 g2
    obtain ⟨m1, m2, m3, m4⟩ := main op2 d' (by rw [hop2]; rfl) g1 hdn
    have he : h ++ [op1, op2, .build checkLine [.obj h.length, .obj (h.length + 1)]]
        = h ++ [op1] ++ [op2] ++ [.build checkLine [.obj h.length, .obj (h.length + 1)]] := by simp
    refine ⟨_, hops, rfl, ?_⟩
    rw [he]
    refine ⟨m1, m2, m3, m4, fun h0 => absurd h0 hc, fun _ k hk i => ?_⟩
    rintro ⟨a, h1, h2⟩
    have hl2 : (h ++ [op1] ++ [op2]).length = h.length + 2 := by simp
    obtain ⟨a', ha'⟩ := region_of_value g1.1
    have h3 := share_build (h ++ [op1] ++ [op2]) (check := checkLine) (xs := [.obj h.length, .obj (h.length + 1)]) (i := 1)
      (j := h.length + 1) rfl ha'
    rw [hl2, h2] at h3
    rw [region_prefix (by rw [hl2]; omega)] at h1
    exact (g2 k (by omega) i).2 ⟨a', ha', by rw [h1, Option.some.inj h3]⟩

/-- `plane.project_line(line)` raises exactly when the method of C37 does (a line accepted as perpendicular to the plane), with
the same exception, and then performs no operation: no object is created or changed. -/
theorem C87_project_line_raises (h : List (Op ℝ)) {P L : Nat} {p m q d : E n} {tol : Tol ℝ} (ht : tol.Nonneg)
    (hm : (after h).value P 1 = some ([n], arr m)) (hd : (after h).value L 1 = some ([n], arr d))
    {pl : Plane ℝ} {ln : Line ℝ} (hpl : Plane.new (arr p) (arr m) = .ok pl) (hln : Line.new (arr q) (arr d) = .ok ln) (e : Err) :
    projectLineOps tol (after h) h.length P L = .error e ↔ pl.projectLine tol ln = .error e := by
  classical
  obtain ⟨-, hm0, rfl⟩ := Plane.new_ok hpl
  obtain ⟨-, hd0, rfl⟩ := Line.new_ok hln
  have a1 : (after h).arrayAt (P, 1) = .ok ⟨[n], arr m⟩ := arrayAt_of_value hm
  have a2 : (after h).arrayAt (L, 1) = .ok ⟨[n], arr d⟩ := arrayAt_of_value hd
  by_cases hpar : ParallelTol tol m d
  · simp [projectLineOps, Plane.projectLine, a1, a2, isParallel_arr ht, hpar]
  · obtain ⟨L', -, -, h1, -⟩ := (C37_project_line_tolerance (Plane.new_arr p hm0) (Line.new_arr q hd0) ht).2 hpar
    simp only [h1]
    by_cases hc : Close tol (inner ℝ m d : ℝ) 0 <;>
      simp [projectLineOps, a1, a2, isParallel_arr ht, hpar, isPerpendicular_arr ht, hc]

/-- Defect: after projecting a line parallel to the plane, writing to the direction of the *result*
(`r = plane.project_line(line); r.direction[:] = x`) changes the direction of the original line. -/
theorem C87_project_line_defect (h : List (Op ℝ)) {P L : Nat} {p m q d : E n}
    (hp : (after h).value P 0 = some ([n], arr p)) (hm : (after h).value P 1 = some ([n], arr m))
    (hq : (after h).value L 0 = some ([n], arr q)) (hd : (after h).value L 1 = some ([n], arr d))
    (hm0 : m ≠ 0) (hd0 : d ≠ 0) (hpar : inner ℝ m d = 0) (x : ℝ) :
    ∃ ops, projectLineOps Tol.default (after h) h.length P L = .ok ops ∧
      (after (h ++ ops)).value L 1 = some ([n], arr d) ∧
      (after (h ++ ops ++ [.field (h.length + 2) 1, .fill (h.length + 3) x])).value L 1 = some ([n], List.replicate n x) := by
  have hpl := Plane.new_arr p hm0
  have hln := Line.new_arr q hd0
  have hnp : ¬ ParallelTol Tol.default m d := by
    rintro (h1 | h1 | h1)
    · rw [close_default_zero] at h1
      exact hm0 (norm_eq_zero.mp (pow_eq_zero_iff (two_ne_zero) |>.mp h1))
    · rw [close_default_zero] at h1
      exact hd0 (norm_eq_zero.mp (pow_eq_zero_iff (two_ne_zero) |>.mp h1))
    · rw [cosE, hpar] at h1
      simp [Close, Tol.default_rel, Tol.default_abs] at h1
      norm_num at h1
  have hrel : (Tol.default : Tol ℝ).rel < 1 := by rw [Tol.default_rel]; norm_num
  obtain ⟨R, -, -, hR, -⟩ := (C37_project_line hpl hln Tol.default_nonneg hrel Tol.default_abs).2 hnp
  obtain ⟨ops, h1, h2, h3, h4, h5, h6, h7, h8⟩ := C87_project_line h Tol.default_nonneg hp hm hq hd hpl hln hR
  have hc : Close Tol.default (inner ℝ m d) 0 := by rw [hpar]; exact Close.refl Tol.default_nonneg 0
  have hL0 := (h5 L (value_lt hd) 1).trans hd
  refine ⟨ops, h1, hL0, ?_⟩
  have hl : (h ++ ops).length = h.length + 3 := by rw [List.length_append, h2]
  have hv : (after (h ++ ops)).value (h.length + 2) 1 = some ([n], arr d) := by
    have := h7 hc []
    rw [List.append_nil] at this
    rw [this, hL0]
  have hfs := field_step (h ++ ops) hv
  rw [hl] at hfs
  have hfill := (C68_fill _ x hfs).1
  have hal := C68_attribute_is_field (h ++ ops) (j := h.length + 2) (i := 1) (by rw [hv]; simp) [.fill (h.length + 3) x]
  rw [hl] at hal
  rw [hal] at hfill
  have e := h7 hc [.field (h.length + 2) 1, .fill (h.length + 3) x]
  have he : h ++ ops ++ [.field (h.length + 2) 1] ++ [.fill (h.length + 3) x]
      = h ++ ops ++ [.field (h.length + 2) 1, .fill (h.length + 3) x] := by simp
  rw [he] at hfill
  rw [← e, hfill]
  simp

/-- The lines of a triangle (object `T`, vertices `v 0`, `v 1`, `v 2`): side `a` runs from B to C, `b` from C to A,
`c` from A to B; the point of the line *is* the vertex stored in the triangle, so that writing to it moves the
triangle, and the direction shares memory with no earlier object. -/
theorem C87_triangle_line (h : List (Op ℝ)) {T : Nat} {v : Fin 3 → E n}
    (hv : ∀ i : Fin 3, (after h).value T i = some ([n], arr (v i))) {side : String} {i k : Fin 3}
    (hside : side = "a" ∧ i = 1 ∧ k = 2 ∨ side = "b" ∧ i = 2 ∧ k = 0 ∨ side = "c" ∧ i = 0 ∧ k = 1) (hne : v i ≠ v k) :
    ∃ ops, triangleLineOps h.length T side = .ok ops ∧
      (after (h ++ ops)).value (h.length + 3) 0 = some ([n], arr (v i)) ∧
      (after (h ++ ops)).value (h.length + 3) 1 = some ([n], arr (v k - v i)) ∧
      (∀ h', (after (h ++ ops ++ h')).value (h.length + 3) 0 = (after (h ++ ops ++ h')).value T i) ∧
      (∀ m < h.length, ∀ l, ¬ Share (h ++ ops) m l (h.length + 3) 1) ∧
      (∀ m < h.length, ∀ l, (after (h ++ ops)).value m l = (after h).value m l) := by
  have hops : triangleLineOps h.length T side
      = .ok ([Op.field T i, Op.field T k] ++ lineFromPointsOps (K := ℝ) (h.length + 2) h.length (h.length + 1)) := by
    rcases hside with ⟨rfl, rfl, rfl⟩ | ⟨rfl, rfl, rfl⟩ | ⟨rfl, rfl, rfl⟩ <;> rfl
  have hT := value_lt (hv 0)
  have f1 := field_step h (hv i)
  have hv2 : (after (h ++ [Op.field T i])).value T k = some ([n], arr (v k)) := by
    rw [C68_frame h _ hT k (by simp [target]), hv k]
  have f2 := field_step (h ++ [.field T i]) hv2
  have f1' := keep (op := Op.field T k) rfl f1
  have hl1 : (h ++ [Op.field T i]).length = h.length + 1 := by simp
  have hl2 : (h ++ [Op.field T i] ++ [Op.field T k]).length = h.length + 2 := by simp
  rw [hl1] at f2
  have key := C87_line_from_points (h ++ [.field T i] ++ [.field T k]) f1' f2 hne
  rw [hl2] at key
  obtain ⟨k1, k2, k3, k4, k5⟩ := key
  have he : h ++ ([Op.field T i, Op.field T k] ++ lineFromPointsOps (K := ℝ) (h.length + 2) h.length (h.length + 1))
      = h ++ [Op.field T i] ++ [Op.field T k] ++ lineFromPointsOps (h.length + 2) h.length (h.length + 1) := by simp
  refine ⟨_, hops, ?_⟩
  rw [he]
  refine ⟨k1, k2, fun h' => ?_, fun m hm l => k4 m (by omega) l, fun m hm l => ?_⟩
  · have e := C68_attribute_is_field h (j := T) (i := i) (by rw [hv i]; simp)
      ([Op.field T k] ++ lineFromPointsOps (h.length + 2) h.length (h.length + 1) ++ h')
    rw [k3 h']
    simpa only [List.append_assoc] using e
  · rw [k5 m (by omega) l, C68_frame _ _ (by rw [hl1]; omega) l (by simp [target]), C68_frame h _ hm l (by simp [target])]

/-! ### The hypotheses are met -/

omit [NeZero n] in
theorem array_step (h : List (Op ℝ)) (x : E n) : IsArray (after (h ++ [.array (.list (arr x))])) h.length [n] (arr x) := by
  have he : (after h).effect (after h).objs.length (.array (.list (arr x)))
      = .ok (setBuf (after h).mem ((after h).objs.length, 0) (arr x), [fresh ((after h).objs.length, 0) [n] (arr x).length]) := by
    simp [State.effect, State.eval]
  have hst := step_ok he
  rw [← after_snoc] at hst
  refine isArray_iff.mpr ⟨fresh ((after h).objs.length, 0) [n] (arr x).length, ?_, rfl, ?_⟩
  · rw [hst]; simp [← len_after h]
  · rw [hst]; exact read_fresh _ _ _ _ _

omit [NeZero n] in
/-- Two arrays, for every pair of points. -/
theorem two_arrays (p q : E n) :
    IsArray (after [.array (.list (arr p)), .array (.list (arr q))]) 0 [n] (arr p) ∧
    IsArray (after [.array (.list (arr p)), .array (.list (arr q))]) 1 [n] (arr q) := by
  have h1 := array_step [] p
  exact ⟨keep (op := .array (.list (arr q))) rfl h1, array_step [.array (.list (arr p))] q⟩

/-- `a = np.array([1, 2]); b = np.array([4, 6]); L = Line.from_points(a, b)`: not shared, and different. -/
example : ∃ (h : List (Op ℝ)) (p q : E 2), IsArray (after h) 0 [2] (arr p) ∧ IsArray (after h) 1 [2] (arr q) ∧ p ≠ q ∧
    ¬ Share h 1 0 0 0 := by
  refine ⟨_, !₂[1, 2], !₂[4, 6], (two_arrays _ _).1, (two_arrays _ _).2, ?_, ?_⟩
  · intro h; have := congrFun (congrArg (fun x : E 2 => x.ofLp) h) 0; norm_num at this
  · rintro ⟨a, h1, h2⟩
    simp [region, regions, opRegions] at h1 h2
    rw [← h1] at h2; cases h2

/-- A history with two compound objects of two arrays each (the plane and the line of `C87_project_line`), for
all points `p`, `q` and all non-zero `m`, `d`. -/
theorem plane_and_line (p q : E n) {m d : E n} (hm : m ≠ 0) (hd : d ≠ 0) :
    ∃ h : List (Op ℝ), (after h).value 2 0 = some ([n], arr p) ∧ (after h).value 2 1 = some ([n], arr m) ∧
      (after h).value 5 0 = some ([n], arr q) ∧ (after h).value 5 1 = some ([n], arr d) := by
  obtain ⟨a1, a2⟩ := two_arrays p m
  obtain ⟨b1, b2, -⟩ := build2 _ a1 a2 (newArray1D_arr p) (newArray1D_arr m) (checkLine_arr p hm)
  obtain ⟨h1, hh1⟩ : ∃ h : List (Op ℝ), h = [.array (.list (arr p)), .array (.list (arr m))] ++
    [.build checkLine [.obj 0, .obj 1]] := ⟨_, rfl⟩
  rw [← hh1] at b1 b2
  have l1 : h1.length = 3 := by rw [hh1]; rfl
  have c1 := array_step h1 q
  have c2 := array_step (h1 ++ [.array (.list (arr q))]) d
  have c1' := keep (op := .array (.list (arr d))) rfl c1
  obtain ⟨e1, e2, -⟩ := build2 _ c1' c2 (newArray1D_arr q) (newArray1D_arr d) (checkLine_arr q hd)
  have fr : ∀ i, (after (h1 ++ [.array (.list (arr q))] ++ [.array (.list (arr d))] ++
      [.build checkLine [.obj h1.length, .obj (h1 ++ [Op.array (.list (arr q))]).length]])).value 2 i = (after h1).value 2 i := by
    intro i
    rw [C68_frame _ _ (by simp [l1]) i (by simp [target]), C68_frame _ _ (by simp [l1]) i (by simp [target]),
      C68_frame _ _ (by simp [l1]) i (by simp [target])]
  refine ⟨_, (fr 0).trans b1, (fr 1).trans b2, ?_, ?_⟩
  · simpa [l1] using e1
  · simpa [l1] using e2

/-- A history with a triangle, for all points `a`, `b`, `c`. -/
theorem triangle_history (v : Fin 3 → E n) : ∃ h : List (Op ℝ), ∀ i : Fin 3, (after h).value 3 i = some ([n], arr (v i)) := by
  obtain ⟨h0, hh0⟩ : ∃ h : List (Op ℝ), h = [.array (.list (arr (v 0))), .array (.list (arr (v 1))), .array (.list (arr (v 2)))] :=
    ⟨_, rfl⟩
  obtain ⟨a1, a2⟩ := two_arrays (v 0) (v 1)
  have b1 := keep (op := .array (.list (arr (v 2)))) rfl a1
  have b2 := keep (op := .array (.list (arr (v 2)))) rfl a2
  have b3 := array_step [.array (.list (arr (v 0))), .array (.list (arr (v 1)))] (v 2)
  change IsArray (after [Op.array (.list (arr (v 0))), .array (.list (arr (v 1))), .array (.list (arr (v 2)))]) _ _ _ at b1 b2 b3
  rw [← hh0] at b1 b2 b3
  obtain ⟨v0, o0, s0, r0⟩ := isArray_iff.mp b1
  obtain ⟨v1, o1, s1, r1⟩ := isArray_iff.mp b2
  obtain ⟨v2, o2, s2, r2⟩ := isArray_iff.mp b3
  have o2' : (after h0).objs[2]? = some (.ok [v2]) := o2
  have hlen : h0.length = 3 := by rw [hh0]; rfl
  have he : (after h0).effect (after h0).objs.length (.build (fun _ => .ok ()) [.obj 0, .obj 1, .obj 2])
      = .ok ((after h0).mem, [v0, v1, v2]) := by
    simp [State.effect, State.newList, State.new1D, State.eval, State.asarray, view_of_objs o0, view_of_objs o1,
      view_of_objs o2', s0, s1, s2, r0, r1, r2, newArray1D_arr]
  have hst := step_ok he
  rw [← after_snoc] at hst
  have hon : (after (h0 ++ [.build (fun _ => .ok ()) [.obj 0, .obj 1, .obj 2]])).objs[3]? = some (Except.ok [v0, v1, v2]) := by
    rw [hst, ← hlen, ← len_after h0]; simp
  refine ⟨h0 ++ [.build (fun _ => .ok ()) [.obj 0, .obj 1, .obj 2]], fun i => ?_⟩
  rw [value_eq hon, hst]
  fin_cases i
  · exact congrArg some (Prod.ext s0 r0)
  · exact congrArg some (Prod.ext s1 r1)
  · exact congrArg some (Prod.ext s2 r2)

/-- The hypotheses of `C87_project_line_defect` are met. -/
example : ∃ (h : List (Op ℝ)) (p m q d : E 3), (after h).value 2 0 = some ([3], arr p) ∧ (after h).value 2 1 = some ([3], arr m) ∧
    (after h).value 5 0 = some ([3], arr q) ∧ (after h).value 5 1 = some ([3], arr d) ∧ m ≠ 0 ∧ d ≠ 0 ∧ inner ℝ m d = 0 := by
  have hm : (!₂[0, 0, 1] : E 3) ≠ 0 := by
    intro h; have := congrFun (congrArg (fun x : E 3 => x.ofLp) h) 2; simp at this
  have hd : (!₂[1, 2, 0] : E 3) ≠ 0 := by
    intro h; have := congrFun (congrArg (fun x : E 3 => x.ofLp) h) 0; norm_num at this
  obtain ⟨h, h1, h2, h3, h4⟩ := plane_and_line (!₂[0, 0, 0] : E 3) (!₂[0, 0, 5] : E 3) hm hd
  refine ⟨h, _, _, _, _, h1, h2, h3, h4, hm, hd, ?_⟩
  simp [PiLp.inner_apply, Fin.sum_univ_three]

end Mem
end SkSpatial
