import Verif.Spec.Arrays
import Verif.Lemmas.Vector
import Verif.Inst.XReal
/-! # C01, C02, C03, C69, C71: the array classes -/

namespace SkSpatial

theorem all_isFinite_iff (l : List XReal) : l.all PyNum.isFinite = true ↔ AllFinite l := by
  simp only [List.all_eq_true, AllFinite]
  refine forall_congr' fun x => forall_congr' fun _ => ?_
  cases x <;> simp [PyNum.isFinite, XReal.isFinite]

theorem size_eq_zero_iff {K : Type} {a : NDArray K} (h : a.WF) : a.size = 0 ↔ a.data = [] := by
  rw [← h]; simp

theorem newArray_ok_iff {a b : NDArray XReal} (h : a.WF) :
    newArray a = .ok b ↔ a.data ≠ [] ∧ AllFinite a.data ∧ b = a := by
  unfold newArray
  rw [← all_isFinite_iff, Ne, ← size_eq_zero_iff h]
  by_cases h1 : a.size = 0
  · simp [h1]
  · rw [if_neg h1]
    cases h2 : a.data.all PyNum.isFinite
    · simp
    · simp [h1, eq_comm]

theorem newArray1D_ok_iff {a b : NDArray XReal} (h : a.WF) :
    newArray1D a = .ok b ↔ a.shape.length = 1 ∧ a.data ≠ [] ∧ AllFinite a.data ∧ b = a := by
  unfold newArray1D NDArray.ndim
  by_cases h1 : a.shape.length = 1
  · simp [h1, newArray_ok_iff h]
  · simp [h1]

theorem newArray2D_ok_iff {a b : NDArray XReal} (h : a.WF) :
    newArray2D a = .ok b ↔ a.shape.length = 2 ∧ a.data ≠ [] ∧ AllFinite a.data ∧ b = a := by
  unfold newArray2D NDArray.ndim
  by_cases h1 : a.shape.length = 2
  · simp [h1, newArray_ok_iff h]
  · simp [h1]

/-! ## C01 -/

/-- C01: `Point(a)` / `Vector(a)` succeed exactly on one-dimensional, non-empty, finite arrays, and then
hold exactly the input values, with `dimension` their number. -/
theorem C01_point_vector_ok_iff (a : NDArray XReal) (hwf : a.WF) :
    ((∃ b, newArray1D a = .ok b) ↔ a.shape.length = 1 ∧ a.data ≠ [] ∧ AllFinite a.data) ∧
    ∀ b, newArray1D a = .ok b → b = a ∧ dimension1D b = a.data.length := by
  refine ⟨?_, ?_⟩
  · simp [newArray1D_ok_iff hwf]
  · intro b hb
    obtain ⟨-, -, -, rfl⟩ := (newArray1D_ok_iff hwf).mp hb
    exact ⟨rfl, hwf.symm⟩

/-- C01: which error is raised when construction fails: the first failed test in the order
1D, non-empty, finite. -/
theorem C01_point_vector_error (a : NDArray XReal) (hwf : a.WF) :
    (a.shape.length ≠ 1 → newArray1D a = .error (.valueError "The array must be 1D.")) ∧
    (a.shape.length = 1 → a.data = [] →
      newArray1D a = .error (.valueError "The array must not be empty.")) ∧
    (a.shape.length = 1 → a.data ≠ [] → ¬ AllFinite a.data →
      newArray1D a = .error (.valueError "The values must all be finite.")) := by
  have hs := size_eq_zero_iff hwf
  have hf := all_isFinite_iff a.data
  unfold newArray1D newArray NDArray.ndim
  refine ⟨fun h => by simp [h], fun h1 h2 => by simp [h1, hs, h2], fun h1 h2 h3 => ?_⟩
  have : ¬ (a.data.all PyNum.isFinite = true) := fun h => h3 (hf.mp h)
  simp only [h1, hs, h2]
  simp [this]

example : ∃ b, newArray1D (⟨[2], [.fin 1, .fin 2]⟩ : NDArray XReal) = .ok b :=
  (C01_point_vector_ok_iff _ (by rfl)).1.mpr ⟨rfl, by simp, by simp [AllFinite]⟩
example : newArray1D (⟨[2], [.fin 1, .nan]⟩ : NDArray XReal) =
    .error (.valueError "The values must all be finite.") :=
  (C01_point_vector_error _ (by rfl)).2.2 rfl (by simp) (by simp [AllFinite])

/-! ## C02 -/

/-- C02: `Points(a)` succeeds exactly on two-dimensional, non-empty, finite arrays; the values are
unchanged and `dimension` is the width of the rows. -/
theorem C02_points_ok_iff (a : NDArray XReal) (hwf : a.WF) :
    ((∃ b, newArray2D a = .ok b) ↔ a.shape.length = 2 ∧ a.data ≠ [] ∧ AllFinite a.data) ∧
    ∀ b, newArray2D a = .ok b → b = a ∧ ∃ N D, a.shape = [N, D] ∧ dimension2D b = some D ∧
      a.data.length = N * D := by
  have hshape : a.shape.length = 2 → ∃ N D, a.shape = [N, D] ∧ dimension2D a = some D ∧
      a.data.length = N * D := by
    intro h
    obtain ⟨N, D, hND⟩ := List.length_eq_two.mp h
    refine ⟨N, D, hND, by simp [dimension2D, hND], ?_⟩
    rw [hwf]; simp [NDArray.size, hND]
  refine ⟨?_, ?_⟩
  · simp [newArray2D_ok_iff hwf]
  · intro b hb
    obtain ⟨h2, -, -, rfl⟩ := (newArray2D_ok_iff hwf).mp hb
    exact ⟨rfl, hshape h2⟩

/-- C02: otherwise `ValueError`. -/
theorem C02_points_error (a : NDArray XReal) (hwf : a.WF)
    (h : ¬ (a.shape.length = 2 ∧ a.data ≠ [] ∧ AllFinite a.data)) :
    ∃ msg, newArray2D a = .error (.valueError msg) := by
  have := (C02_points_ok_iff a hwf).1.not.mpr h
  unfold newArray2D newArray at *
  split
  · exact ⟨_, rfl⟩
  · split
    · exact ⟨_, rfl⟩
    · split
      · exact ⟨_, rfl⟩
      · rename_i h1 h2 h3; exact absurd ⟨a, by simp [h1, h2, h3]⟩ this

example : ∃ b, newArray2D (⟨[1, 2], [.fin 1, .fin 2]⟩ : NDArray XReal) = .ok b :=
  (C02_points_ok_iff _ (by rfl)).1.mpr ⟨rfl, by simp, by simp [AllFinite]⟩
example : ∃ msg, newArray2D (⟨[1, 2], [.fin 1, .posInf]⟩ : NDArray XReal) = .error (.valueError msg) :=
  C02_points_error _ (by rfl) (by simp [AllFinite])

/-! ### The specialisations used by the other model files -/

/-- `new1D` is the 1D constructor on a flat list. -/
theorem new1D_eq {K : Type} [PyNum K] (l : List K) :
    (newArray1D (NDArray.of1D l)).map NDArray.data = new1D l := by
  simp only [newArray1D, newArray, NDArray.of1D, NDArray.ndim, NDArray.size, new1D]
  by_cases h1 : l.length = 0
  · simp [h1, Except.map]
  · by_cases h2 : l.all PyNum.isFinite = true
    · simp [h1, h2, Except.map]
    · simp only [List.length_singleton, ne_eq, not_true_eq_false, if_false, List.foldl_cons,
        List.foldl_nil, one_mul, h1]
      simp [h2, Except.map]

/-- The list of rows as a 2D array. -/
def NDArray.ofRows {K : Type} (rs : List (List K)) : NDArray K :=
  ⟨[rs.length, rowDim rs], rs.flatten⟩

/-- `newPoints` is the 2D constructor on a non-empty rectangular list of rows. -/
theorem newPoints_eq {K : Type} [PyNum K] (r : List K) (rs : List (List K))
    (h : ∀ s ∈ rs, s.length = r.length) :
    (newArray2D (NDArray.ofRows (r :: rs))).map (fun _ => r :: rs) = newPoints (r :: rs) := by
  have hall : (rs.all fun s => s.length = r.length) = true := by simpa using h
  simp only [newArray2D, newArray, NDArray.ofRows, NDArray.ndim, NDArray.size, newPoints, rowDim, hall]
  by_cases h1 : r.length = 0
  · simp [h1, Except.map]
  · have hb : ((r :: rs).all fun s => s.all PyNum.isFinite) = ((r :: rs).flatten).all PyNum.isFinite := by
      rw [Bool.eq_iff_iff]; simp [List.all_eq_true]
    rw [hb]
    rcases Bool.eq_false_or_eq_true (((r :: rs).flatten).all PyNum.isFinite) with h2 | h2
    · simp only [h2, List.foldl_cons, List.foldl_nil, List.length_cons]
      simp [h1, Except.map]
    · simp only [h2, List.foldl_cons, List.foldl_nil, List.length_cons]
      simp [h1, Except.map]

/-! ## C03 -/

/-- C03 (1D): `set_dimension(d)` raises iff `d` is below the current dimension; otherwise the result is
the values of the array followed by zeros, `d` values in total. -/
theorem C03_set_dimension (v : List ℝ) (hv : v ≠ []) (d : ℤ) :
    (d < v.length → setDimension d v = .error (.valueError
      "The desired dimension cannot be less than the current dimension.")) ∧
    ((v.length : ℤ) ≤ d → ∃ w, setDimension d v = .ok w ∧ (w.length : ℤ) = d ∧
      (∀ i, i < v.length → w[i]? = v[i]?) ∧ (∀ i, v.length ≤ i → i < w.length → w[i]? = some 0)) := by
  constructor
  · intro h; simp [setDimension, h]
  · intro h
    refine ⟨v ++ List.replicate (d - v.length).toNat 0, ?_, ?_, ?_, ?_⟩
    · rw [setDimension, if_neg (not_lt.mpr h)]
      simp only [zero_real]
      apply new1D_real; simp [hv]
    · simp; omega
    · intro i hi; simp [List.getElem?_append, hi]
    · intro i hi hi2
      simp at hi2
      rw [List.getElem?_append_right hi, List.getElem?_replicate]
      simp; omega

theorem arr_padTo {n m : ℕ} (h : n ≤ m) (x : E n) :
    arr (padTo m x) = arr x ++ List.replicate (m - n) 0 := by
  apply List.ext_getElem
  · simp; omega
  · intro i h1 h2
    simp only [List.getElem_append, length_arr]
    split
    · rename_i hi; simp [arr, padTo, hi]
    · rename_i hi; simp [arr, padTo, hi]

theorem inner_padTo {n m : ℕ} (h : n ≤ m) (x y : E n) :
    inner ℝ (padTo m x) (padTo m y) = (inner ℝ x y : ℝ) := by
  rw [← dotv_arr, ← dotv_arr, arr_padTo h, arr_padTo h]
  simp only [dotv_real, sumL_real]
  rw [List.zipWith_append (by simp)]
  have hz : ∀ k, (List.zipWith PyNum.mul (List.replicate k (0 : ℝ)) (List.replicate k 0)).sum = 0 := by
    intro k; simp
  rw [List.sum_append, hz, add_zero]

theorem padTo_sub {n m : ℕ} (x y : E n) : padTo m (x - y) = padTo m x - padTo m y := by
  ext i; simp only [padTo, PiLp.sub_apply]; split <;> simp

/-- C03 (1D): `set_dimension` to the current dimension changes nothing; going to `d` and then to `e`
is going to `e`; norms, dot products and distances are preserved. -/
theorem C03_set_dimension_laws {n : ℕ} [NeZero n] (x y : E n) (d e : ℕ) (hd : n ≤ d) (he : d ≤ e) :
    setDimension n (arr x) = .ok (arr x) ∧
    (setDimension d (arr x) >>= setDimension e) = setDimension e (arr x) ∧
    ∃ x' y' : E d, setDimension d (arr x) = .ok (arr x') ∧ setDimension d (arr y) = .ok (arr y') ∧
      ‖x'‖ = ‖x‖ ∧ inner ℝ x' y' = (inner ℝ x y : ℝ) ∧ dist x' y' = dist x y := by
  have : NeZero d := ⟨by have := NeZero.ne n; omega⟩
  have hnorm : ∀ z : E n, ‖padTo d z‖ = ‖z‖ := fun z => by
    rw [norm_eq_sqrt_real_inner, norm_eq_sqrt_real_inner, inner_padTo hd]
  refine ⟨?_, ?_, padTo d x, padTo d y, setDimension_arr x hd, setDimension_arr y hd, hnorm x,
    inner_padTo hd x y, ?_⟩
  · rw [setDimension_arr x le_rfl]
    congr 2
    ext i; simp [padTo]
  · rw [setDimension_arr x hd, ok_bind, setDimension_arr _ he, setDimension_arr x (hd.trans he)]
    congr 2
    ext i
    simp only [padTo]
    by_cases h1 : (i : ℕ) < d
    · simp [h1]
    · have : ¬ (i : ℕ) < n := by omega
      simp [h1, this]
  · rw [dist_eq_norm, dist_eq_norm, ← padTo_sub, hnorm]

theorem newPoints_real {r : List ℝ} {rs : List (List ℝ)} (hr : r ≠ [])
    (h : ∀ s ∈ rs, s.length = r.length) : newPoints (r :: rs) = .ok (r :: rs) := by
  simp only [newPoints]
  have h1 : (rs.all fun s => s.length = r.length) = true := by simpa using h
  simp [hr]
  intro s hs; exact h s hs

/-- C03 (2D): on `Points` the same happens to every row. -/
theorem C03_set_dimension_points (ps : List (List ℝ)) (hps : newPoints ps = .ok ps) (d : ℤ) :
    (d < rowDim ps → setDimension2D d ps = .error (.valueError
      "The desired dimension cannot be less than the current dimension.")) ∧
    ((rowDim ps : ℤ) ≤ d → ∃ qs, setDimension2D d ps = .ok qs ∧ (rowDim qs : ℤ) = d ∧
      (ps.mapM fun r => setDimension d r) = .ok qs) := by
  constructor
  · intro h; simp [setDimension2D, h]
  · intro h
    match ps, hps with
    | [], hps => simp [newPoints] at hps
    | r :: rs, hps =>
      simp only [newPoints] at hps
      split at hps
      · cases hps
      · rename_i h1
        split at hps
        · cases hps
        · rename_i h2
          have hrs : ∀ s ∈ rs, s.length = r.length := by simpa using h1
          have hr : r ≠ [] := by simpa using h2
          simp only [rowDim] at h
          refine ⟨(r :: rs).map fun s => s ++ List.replicate (d - r.length).toNat 0, ?_, ?_, ?_⟩
          · rw [setDimension2D, if_neg (by simpa [rowDim] using h)]
            simp only [zero_real, rowDim, List.map_cons]
            apply newPoints_real
            · simp [hr]
            · intro s hs
              simp only [List.mem_map] at hs
              obtain ⟨s', hs', rfl⟩ := hs
              simp [hrs s' hs']
          · simp [rowDim]; omega
          · apply mapM_ok
            intro s hs
            have hlen : s.length = r.length := by
              rcases List.mem_cons.mp hs with h | h
              · rw [h]
              · exact hrs s h
            rw [setDimension, if_neg (by rw [hlen]; omega), hlen]
            simp only [zero_real]
            apply new1D_real
            intro hc
            have hl := congrArg List.length hc
            have : r.length ≠ 0 := by simpa using hr
            simp only [List.length_append, hlen, List.length_nil] at hl; omega

example : newPoints [[(1 : ℝ), 2], [3, 4]] = .ok [[1, 2], [3, 4]] :=
  newPoints_real (by simp) (by simp)
example : ∃ w, setDimension 5 [(1 : ℝ), 2] = .ok w ∧ (w.length : ℤ) = 5 := by
  obtain ⟨w, h1, h2, -⟩ := (C03_set_dimension [1, 2] (by simp) 5).2 (by simp)
  exact ⟨w, h1, h2⟩

/-! ## C69 -/

/-- A method of `Point` can be called on the result of array arithmetic exactly if `__array_wrap__` has made it a `Point`
(likewise `Vector`). -/
theorem wrapped_eq (m : String) {c : Cls} (hc : c ≠ .points) {l : List XReal} (hl : l ≠ []) :
    wrapped m l = .ok l ↔ arrayWrap c (NDArray.of1D l) false = .obj c (NDArray.of1D l) := by
  have e : construct c (NDArray.of1D l) = newArray1D (NDArray.of1D l) := by cases c <;> first | rfl | exact absurd rfl hc
  have wf : (NDArray.of1D l).WF := by simp [NDArray.WF, NDArray.of1D, NDArray.size]
  have hf : l.all PyNum.isFinite = true ↔ AllFinite l := by
    simp only [List.all_eq_true, AllFinite]
    refine forall₂_congr fun x _ => ?_
    cases x with
    | fin r => exact ⟨fun _ => ⟨r, rfl⟩, fun _ => rfl⟩
    | _ => exact Iff.intro (fun h => by cases h) (fun h => by obtain ⟨r, hr⟩ := h; cases hr)
  have key : ∀ b, newArray1D (NDArray.of1D l) = .ok b ↔ l.all PyNum.isFinite = true ∧ b = NDArray.of1D l := fun b => by
    rw [newArray1D_ok_iff wf, hf]
    exact ⟨fun h => h.2.2, fun h => ⟨rfl, hl, h⟩⟩
  unfold wrapped arrayWrap
  rw [e]
  by_cases h : l.all PyNum.isFinite = true
  · simp [h, (key _).mpr ⟨h, rfl⟩]
  · simp only [h]
    cases hh : newArray1D (NDArray.of1D l) with
    | ok b => exact absurd ((key b).mp hh).1 h
    | error _ => simp

/-- C69: for every result array `a` of a NumPy call on an object of class `c`: a typed object is
returned exactly when the array satisfies the class invariant, otherwise the plain array; scalars stay
scalars; the values are never changed. -/
theorem C69_array_wrap (c : Cls) (a : NDArray XReal) (hwf : a.WF) :
    (ValidFor c a → arrayWrap c a false = .obj c a) ∧
    (¬ ValidFor c a → arrayWrap c a false = .plain a) ∧
    (∀ x, a.shape = [] → a.data = [x] → arrayWrap c a true = .scalar x) ∧
    (∀ s, (arrayWrap c a s).data = a.data) ∧
    (∀ s c' b, arrayWrap c a s = .obj c' b → c' = c ∧ b = a ∧ ValidFor c a) := by
  have key : ∀ b, construct c a = .ok b ↔ (ValidFor c a ∧ b = a) := by
    intro b
    cases c
    · simp [construct, ValidFor, newArray1D_ok_iff hwf, and_assoc]
    · simp [construct, ValidFor, newArray1D_ok_iff hwf, and_assoc]
    · simp [construct, ValidFor, newArray2D_ok_iff hwf, and_assoc]
  have h1 : ValidFor c a → arrayWrap c a false = .obj c a := by
    intro hv
    simp [arrayWrap, (key a).mpr ⟨hv, rfl⟩]
  have h2 : ¬ ValidFor c a → arrayWrap c a false = .plain a := by
    intro hv
    simp only [arrayWrap]
    cases h : construct c a with
    | ok b => exact absurd ((key b).mp h).1 hv
    | error e => simp
  have h3 : ∀ x, a.shape = [] → a.data = [x] → arrayWrap c a true = .scalar x := by
    intro x hs hd; simp [arrayWrap, hs, hd]
  have h4 : ∀ s c' b, arrayWrap c a s = .obj c' b → c' = c ∧ b = a ∧ ValidFor c a := by
    intro s c' b h
    cases s
    · by_cases hv : ValidFor c a
      · rw [h1 hv] at h; cases h; exact ⟨rfl, rfl, hv⟩
      · rw [h2 hv] at h; cases h
    · simp only [arrayWrap, if_true] at h; split at h <;> cases h
  refine ⟨h1, h2, h3, ?_, h4⟩
  intro s
  cases s
  · by_cases hv : ValidFor c a
    · rw [h1 hv]; rfl
    · rw [h2 hv]; rfl
  · simp only [arrayWrap, if_true]
    split
    · rename_i h; simp [Wrapped.data, h]
    · rfl

example : arrayWrap .vector (⟨[2], [.fin 1, .fin 2]⟩ : NDArray XReal) false
    = .obj .vector ⟨[2], [.fin 1, .fin 2]⟩ :=
  (C69_array_wrap _ _ (by rfl)).1 ⟨rfl, by simp, by simp [AllFinite]⟩
example : arrayWrap .point (⟨[2], [.fin 1, .nan]⟩ : NDArray XReal) false
    = .plain ⟨[2], [.fin 1, .nan]⟩ :=
  (C69_array_wrap _ _ (by rfl)).2.1 (by simp [ValidFor, AllFinite])

/-! ## C71 -/

open Classical in
/-- C71: `a.is_close(b)` holds iff every pair of coordinates satisfies `math.isclose`. -/
theorem C71_is_close {n : ℕ} (tol : Tol ℝ) (h : tol.Nonneg) (a b : E n) :
    arrIsClose tol (arr a) (arr b) = .ok (decide (∀ i, Close tol (a i) (b i))) := by
  simp only [arrIsClose, broadcastPairs, length_arr, if_true, ok_bind]
  rw [mapM_ok _ _ (fun p => decide (Close tol p.1 p.2)) (fun p _ => isclose_eq h p.1 p.2)]
  simp only [ok_bind, pure_ok, Except.ok.injEq]
  rw [Bool.eq_iff_iff]
  simp only [List.all_eq_true, List.mem_map, decide_eq_true_eq]
  constructor
  · intro hc i
    have := hc (decide (Close tol (a i) (b i))) ⟨(a i, b i), ?_, rfl⟩
    · simpa using this
    · rw [List.mem_iff_getElem]
      exact ⟨i, by simp, by simp [arr]⟩
  · rintro hc _ ⟨p, hp, rfl⟩
    rw [List.mem_iff_getElem] at hp
    obtain ⟨i, hi, rfl⟩ := hp
    simp at hi
    simpa [arr] using hc ⟨i, hi⟩

/-- C71: `is_close` is reflexive and symmetric, exact equality for zero tolerances, implied by
`is_equal`, and monotone in both tolerances. -/
theorem C71_is_close_laws {n : ℕ} (tol : Tol ℝ) (h : tol.Nonneg) (a b : E n) :
    arrIsClose tol (arr a) (arr a) = .ok true ∧
    arrIsClose tol (arr a) (arr b) = arrIsClose tol (arr b) (arr a) ∧
    (arrIsClose Tol.exact (arr a) (arr b) = .ok true ↔ a = b) ∧
    (arrIsEqual (arr a) (arr b) = true → arrIsClose tol (arr a) (arr b) = .ok true) ∧
    (∀ tol' : Tol ℝ, tol.rel ≤ tol'.rel → tol.abs ≤ tol'.abs →
      arrIsClose tol (arr a) (arr b) = .ok true → arrIsClose tol' (arr a) (arr b) = .ok true) := by
  refine ⟨?_, ?_, ?_, ?_, ?_⟩
  · rw [C71_is_close tol h]; simp [Close.refl h]
  · rw [C71_is_close tol h, C71_is_close tol h]; simp [close_comm tol (b _)]
  · rw [C71_is_close _ Tol.exact_nonneg]
    simp only [close_exact, Except.ok.injEq, decide_eq_true_eq]
    constructor
    · intro hh; ext i; exact hh i
    · rintro rfl; simp
  · intro he
    have : a = b := by
      apply arr_injective
      simp only [arrIsEqual, length_arr, decide_true, Bool.true_and, List.all_eq_true, eq_real,
        decide_eq_true_eq] at he
      apply List.ext_getElem (by simp)
      intro i h1 h2
      have hm : ((arr a)[i], (arr b)[i]) ∈ (arr a).zip (arr b) := by
        rw [List.mem_iff_getElem]
        exact ⟨i, by simpa using h1, by simp⟩
      exact he _ hm
    subst this
    rw [C71_is_close tol h]; simp [Close.refl h]
  · intro tol' h1 h2 hc
    have h' : tol'.Nonneg := ⟨h.1.trans h1, h.2.trans h2⟩
    rw [C71_is_close tol h] at hc
    rw [C71_is_close tol' h']
    simp only [Except.ok.injEq, decide_eq_true_eq] at *
    intro i
    refine (hc i).trans ?_
    apply max_le_max _ h2
    exact mul_le_mul_of_nonneg_right h1 (by positivity)

/-- C71: `is_equal` is exact equality of same-shaped arrays, and `False` (no error) for different
shapes; negative tolerances make `is_close` raise. -/
theorem C71_is_equal {n m : ℕ} (a : E n) (b : E m) :
    arrIsEqual (arr a) (arr b) = true ↔ arr a = arr b := by
  constructor
  · intro he
    simp only [arrIsEqual, length_arr, Bool.and_eq_true, decide_eq_true_eq, List.all_eq_true,
      eq_real] at he
    obtain ⟨rfl, he⟩ := he
    apply List.ext_getElem (by simp)
    intro i h1 h2
    have hm : ((arr a)[i], (arr b)[i]) ∈ (arr a).zip (arr b) := by
      rw [List.mem_iff_getElem]
      exact ⟨i, by simpa using h1, by simp⟩
    exact he _ hm
  · intro he
    rw [he]
    simp only [arrIsEqual, decide_true, Bool.true_and, List.all_eq_true, eq_real, decide_eq_true_eq]
    intro p hp
    rw [List.mem_iff_getElem] at hp
    obtain ⟨i, hi, rfl⟩ := hp
    simp

theorem C71_negative_tolerance {n : ℕ} [NeZero n] (tol : Tol ℝ) (h : ¬ tol.Nonneg) (a b : E n) :
    ∃ msg, arrIsClose tol (arr a) (arr b) = .error (.valueError msg) := by
  simp only [arrIsClose, broadcastPairs, length_arr, if_true, ok_bind]
  have : (arr a).zip (arr b) ≠ [] := by
    intro hc; have := congrArg List.length hc; simp at this; exact NeZero.ne n this
  obtain ⟨p, ps, hp⟩ := List.exists_cons_of_ne_nil this
  rw [hp, List.mapM_cons, isclose_neg h]
  exact ⟨_, rfl⟩

example : Close ⟨0, 1 / 2⟩ 1 1.25 := by norm_num [Close]

end SkSpatial
