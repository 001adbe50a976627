import Verif.Lemmas.Rint
import Mathlib.Algebra.Order.Round
import Verif.Lemmas.Heap
import Verif.Lemmas.Vector
import Verif.Lemmas.Line
/-!
# Aliasing (C68)

`after h` is the state after the history `h`; `value s j i` is the shape and entries of the `i`-th array of the
object returned by the `j`-th operation (`i = 0` for a plain array).  `region h j i` (Spec/Heap.lean) says,
from the history alone, which memory this array refers to.
-/

namespace SkSpatial
namespace Mem
variable {K : Type} [PyNum K]

/-! ### Connecting `IsArray` and `value` to the views -/

theorem isArray_iff {s : State K} {j : Nat} {shape : List Nat} {vals : List K} :
    IsArray s j shape vals ↔ ∃ v, s.objs[j]? = some (Except.ok [v]) ∧ v.shape = shape ∧ s.read v = vals := by
  unfold IsArray State.value
  rcases s.objs[j]? with _ | (e | vs)
  · simp
  · simp
  · rcases vs with _ | ⟨v, _ | ⟨w, ws⟩⟩ <;> simp

theorem view_of_objs {s : State K} {j : Nat} {v : View} (h : s.objs[j]? = some (Except.ok [v])) : s.view j = .ok v := by
  unfold State.view; rw [h]

theorem objs_of_view {s : State K} {j : Nat} {v : View} (h : s.view j = .ok v) : s.objs[j]? = some (Except.ok [v]) := by
  unfold State.view at h
  split at h
  · rename_i w heq; cases h; exact heq
  · cases h

theorem value_eq {s : State K} {j : Nat} {vs : List View} (h : s.objs[j]? = some (Except.ok vs)) (i : Nat) :
    s.value j i = vs[i]?.map fun v => (v.shape, s.read v) := by
  unfold State.value; rw [h]

theorem objs_run {s : State K} {j : Nat} (h : List (Op K)) (hj : j < s.objs.length) :
    (s.run h).objs[j]? = s.objs[j]? ∧ j < (s.run h).objs.length := by
  induction h using List.reverseRecOn with
  | nil => exact ⟨rfl, hj⟩
  | append_singleton h op ih =>
    rw [run_snoc, objs_step op ih.2]
    refine ⟨ih.1, ?_⟩
    have := objs_step op ih.2
    have h2 : ((s.run h).step op).objs[j]? ≠ none := by
      rw [this]; simpa using ih.2
    simpa using h2

theorem lt_of_objs {s : State K} {j : Nat} {r} (h : s.objs[j]? = some r) : j < s.objs.length :=
  (List.getElem?_eq_some_iff.mp h).1

theorem objs_after {h : List (Op K)} {j : Nat} {r} (hr : (after h).objs[j]? = some r) (h' : List (Op K)) :
    (after (h ++ h')).objs[j]? = some r := by
  unfold after at *
  rw [run_append, (objs_run h' (lt_of_objs hr)).1, hr]

theorem after_snoc (h : List (Op K)) (op : Op K) : after (h ++ [op]) = (after h).step op := run_snoc _ _ _

theorem len_after (h : List (Op K)) : (after h).objs.length = h.length := objs_length h

theorem step_ok {s : State K} {op : Op K} {m : Addr → List K} {vs : List View}
    (h : s.effect s.objs.length op = .ok (m, vs)) : s.step op = ⟨m, s.objs ++ [.ok vs]⟩ := by
  unfold State.step; rw [h]

theorem step_error {s : State K} {op : Op K} {e : Err}
    (h : s.effect s.objs.length op = .error e) : s.step op = ⟨s.mem, s.objs ++ [.error e]⟩ := by
  unfold State.step; rw [h]

omit [PyNum K] in
theorem regions_length (h : List (Op K)) : (regions h).length = h.length := by
  induction h using List.reverseRecOn with
  | nil => rfl
  | append_singleton h op ih => simpa [regions] using ih

omit [PyNum K] in
theorem region_prefix {h : List (Op K)} {j : Nat} (hj : j < h.length) (h' : List (Op K)) (i : Nat) :
    region (h ++ h') j i = region h j i := by
  induction h' using List.reverseRecOn with
  | nil => simp
  | append_singleton h' op ih =>
    rw [← ih, ← List.append_assoc]
    unfold region
    have : regions (h ++ h' ++ [op]) = regions (h ++ h') ++ [opRegions (regions (h ++ h')) op] := by simp [regions]
    rw [this, List.getD, List.getElem?_append_left (by rw [regions_length]; simp; omega), List.getD]

theorem region_of_view {h : List (Op K)} {j i : Nat} {vs : List View} {v : View}
    (ho : (after h).objs[j]? = some (Except.ok vs)) (hv : vs[i]? = some v) : region h j i = some v.buf := by
  have := (inv_run h).bufs j vs ho
  simp [region, List.getD, this, hv]

omit [PyNum K] in
theorem region_lt {h : List (Op K)} {j i : Nat} {a : Addr} (hr : region h j i = some a) : j < h.length := by
  by_contra hlt
  unfold region at hr
  have : (regions h)[j]? = none := List.getElem?_eq_none_iff.mpr (by rw [regions_length]; omega)
  simp [List.getD, this] at hr

omit [PyNum K] in
theorem Share.extend {h : List (Op K)} {j i k l : Nat} (hs : Share h j i k l) (h' : List (Op K)) :
    Share (h ++ h') j i k l := by
  obtain ⟨a, h1, h2⟩ := hs
  exact ⟨a, by rw [region_prefix (region_lt h1), h1], by rw [region_prefix (region_lt h2), h2]⟩

/-! ### No other object changes -/

/-- An operation that does not write (`target op = none`), or that writes to an array in a different memory
region, leaves the value of every array unchanged — for every history. -/
theorem C68_frame (h : List (Op K)) (op : Op K) {j : Nat} (hj : j < h.length) (i : Nat)
    (ht : ∀ t, target op = some t → ¬ Share h t 0 j i) :
    (after (h ++ [op])).value j i = (after h).value j i := by
  rw [after_snoc]
  have hjl : j < (after h).objs.length := by rwa [len_after]
  have hobj := objs_step op hjl
  have hI : Inv (after h) (regions h) := inv_run h
  rcases hs : (after h).objs[j]? with _ | (e | vs)
  · unfold State.value; rw [hobj, hs]
  · unfold State.value; rw [hobj, hs]
  · rw [value_eq (hobj.trans hs), value_eq hs]
    rcases hv : vs[i]? with _ | v
    · rfl
    · simp only [Option.map_some, Option.some.injEq, Prod.mk.injEq, true_and]
      apply read_congr
      rcases he : (after h).effect (after h).objs.length op with e | ⟨m, us⟩
      · rw [step_error he]
      · rw [step_ok he]
        refine (effect_eff hI he).frame v.buf ((hI.wf _ _ hs v (List.mem_of_getElem? hv)).2.2) ?_
        intro t w htt hw hwv
        refine ht t htt ⟨v.buf, ?_, region_of_view hs hv⟩
        rw [region_of_view (objs_of_view hw) (i := 0) (v := w) rfl, hwv]

/-- The same over any number of further operations. -/
theorem C68_frame_forever (h : List (Op K)) {j : Nat} (hj : j < h.length) (i : Nat) (h' : List (Op K))
    (ht : ∀ op ∈ h', ∀ t, target op = some t → ¬ Share (h ++ h') t 0 j i) :
    (after (h ++ h')).value j i = (after h).value j i := by
  induction h' using List.reverseRecOn with
  | nil => simp
  | append_singleton h' op ih =>
    have hjl : j < (h ++ h').length := by simp; omega
    rw [← List.append_assoc] at ht ⊢
    rw [C68_frame _ _ hjl i (fun t htt hs => ht op (by simp) t htt (hs.extend [op]))]
    exact ih (fun op' hop' t htt hs => ht op' (by simp [hop']) t htt (hs.extend [op]))

/-- The shape and the number of entries of an array never change. -/
theorem C68_shape_forever (h h' : List (Op K)) {j i : Nat} {shape : List Nat} {vals : List K}
    (hv : (after h).value j i = some (shape, vals)) :
    ∃ vals', (after (h ++ h')).value j i = some (shape, vals') ∧ vals'.length = vals.length := by
  rcases hs : (after h).objs[j]? with _ | (e | vs)
  · unfold State.value at hv; rw [hs] at hv; cases hv
  · unfold State.value at hv; rw [hs] at hv; cases hv
  · rw [value_eq hs] at hv
    rw [value_eq (objs_after hs h')]
    rcases hw : vs[i]? with _ | w
    · rw [hw] at hv; cases hv
    · rw [hw] at hv
      simp only [Option.map_some, Option.some.injEq, Prod.mk.injEq] at hv
      obtain ⟨rfl, rfl⟩ := hv
      exact ⟨_, rfl, by simp [State.read]⟩

/-! ### Rounding is in place -/

/-- `x.round(decimals)` succeeds on every array, changes the array itself to the rounded values, and returns
an object with these values; from then on the two are the same array. -/
theorem C68_round_in_place (h : List (Op K)) {j : Nat} {shape : List Nat} {vals : List K} (d : Int)
    (hx : IsArray (after h) j shape vals) :
    IsArray (after (h ++ [.round j d])) j shape (vals.map (roundDigits d)) ∧
    ∀ h', (after (h ++ [.round j d] ++ h')).value h.length 0 = (after (h ++ [.round j d] ++ h')).value j 0 := by
  obtain ⟨v, ho, rfl, rfl⟩ := isArray_iff.mp hx
  have hI : Inv (after h) (regions h) := inv_run h
  have hv := view_of_objs ho
  have he : (after h).effect (after h).objs.length (.round j d)
      = .ok (writeAll (after h).mem v (roundValues d ((after h).read v)), [v]) := by
    simp [State.effect, hv]
  have hst : after (h ++ [.round j d]) =
      ⟨writeAll (after h).mem v (roundValues d ((after h).read v)), (after h).objs ++ [.ok [v]]⟩ := by
    rw [after_snoc, step_ok he]
  have hoj : (after (h ++ [.round j d])).objs[j]? = some (Except.ok [v]) := objs_after ho _
  have hon : (after (h ++ [.round j d])).objs[h.length]? = some (Except.ok [v]) := by
    rw [hst]; simp [← len_after h]
  refine ⟨isArray_iff.mpr ⟨v, hoj, rfl, ?_⟩, fun h' => ?_⟩
  · rw [hst]
    exact read_writeAll (hI.view hv).2 (by simp [roundValues, State.read]) _
  · rw [value_eq (objs_after hon h'), value_eq (objs_after hoj h')]

/-- In NumPy 1, `Points.round` returns a new object with the rounded values; the array itself still changes. -/
theorem C68_round_points_numpy1 (h : List (Op K)) {j : Nat} {shape : List Nat} {vals : List K} (d : Int)
    (hx : IsArray (after h) j shape vals) :
    IsArray (after (h ++ [.roundWrap j d])) j shape (vals.map (roundDigits d)) ∧
    IsArray (after (h ++ [.roundWrap j d])) h.length shape (vals.map (roundDigits d)) := by
  obtain ⟨v, ho, rfl, rfl⟩ := isArray_iff.mp hx
  have hI : Inv (after h) (regions h) := inv_run h
  have hv := view_of_objs ho
  have hlen := len_after h
  obtain ⟨vals, hvals⟩ : ∃ vals, vals = roundValues d ((after h).read v) := ⟨_, rfl⟩
  have he : (after h).effect (after h).objs.length (.roundWrap j d)
      = .ok (setBuf (writeAll (after h).mem v vals) ((after h).objs.length, 0) vals,
          [fresh ((after h).objs.length, 0) v.shape vals.length]) := by
    simp [State.effect, hv, hvals]
  have hst := step_ok he
  rw [← after_snoc] at hst
  have hoj : (after (h ++ [.roundWrap j d])).objs[j]? = some (Except.ok [v]) := objs_after ho _
  have hon : (after (h ++ [.roundWrap j d])).objs[h.length]?
      = some (Except.ok [fresh ((after h).objs.length, 0) v.shape vals.length]) := by
    rw [hst]; simp [← len_after h]
  have hr : vals = ((after h).read v).map (roundDigits d) := hvals
  have hb : v.buf ≠ ((after h).objs.length, 0) := ne_of_lt (hI.view hv).2.2.2
  refine ⟨isArray_iff.mpr ⟨v, hoj, rfl, ?_⟩, isArray_iff.mpr ⟨_, hon, rfl, ?_⟩⟩
  · rw [← hr, hst]
    rw [read_congr (s := ⟨writeAll (after h).mem v vals, []⟩) (setBuf_ne _ hb)]
    exact read_writeAll (hI.view hv).2 (by rw [hr]; simp [State.read]) _
  · rw [← hr, hst]
    exact read_fresh _ _ _ _ _

theorem roundDigits_real (d : Int) (x : ℝ) : roundDigits d x = rintReal (x * (10 : ℝ) ^ d) / (10 : ℝ) ^ d := by
  unfold roundDigits
  split_ifs with h
  · obtain ⟨n, rfl⟩ := Int.eq_ofNat_of_zero_le h
    simp [PyNum.rint, PyNum.ofInt]
  · obtain ⟨n, hn⟩ := Int.eq_ofNat_of_zero_le (show (0 : ℤ) ≤ -d by omega)
    obtain rfl : d = -(n : ℤ) := by omega
    simp [PyNum.rint, PyNum.ofInt, div_eq_mul_inv]

/-- The rounded value of a real number `x`: a multiple of `10^(-d)` at distance at most half of `10^(-d)`, and
among two nearest multiples the even one; rounding twice is rounding once. -/
theorem C68_round_value (d : Int) (x : ℝ) :
    ∃ m : ℤ, roundDigits d x = m * (10 : ℝ) ^ (-d) ∧ |roundDigits d x - x| ≤ (10 : ℝ) ^ (-d) / 2 ∧
      (|roundDigits d x - x| = (10 : ℝ) ^ (-d) / 2 → Even m) ∧
      roundDigits d (roundDigits d x) = roundDigits d x := by
  obtain ⟨m, h1, h2, h3⟩ := rintReal_spec (x * (10 : ℝ) ^ d)
  have hc : (0 : ℝ) < (10 : ℝ) ^ d := by positivity
  have e : roundDigits d x = m * (10 : ℝ) ^ (-d) := by rw [roundDigits_real, h1, zpow_neg, div_eq_mul_inv]
  have key : |roundDigits d x - x| = |(m : ℝ) - x * (10 : ℝ) ^ d| * (10 : ℝ) ^ (-d) := by
    rw [e, ← abs_of_pos (show (0 : ℝ) < (10 : ℝ) ^ (-d) by positivity), ← abs_mul,
      abs_of_pos (show (0 : ℝ) < (10 : ℝ) ^ (-d) by positivity)]
    congr 1
    rw [zpow_neg]; field_simp
  have hp : (0 : ℝ) < (10 : ℝ) ^ (-d) := by positivity
  refine ⟨m, e, ?_, fun h => h3 ?_, ?_⟩
  · rw [key]; nlinarith
  · rw [key] at h
    have : (|(m : ℝ) - x * (10 : ℝ) ^ d| - 1 / 2) * (10 : ℝ) ^ (-d) = 0 := by linarith
    rcases mul_eq_zero.mp this with h | h
    · linarith
    · exact absurd h hp.ne'
  · rw [roundDigits_real d (roundDigits d x), e, zpow_neg, mul_assoc, inv_mul_cancel₀ hc.ne', mul_one, rintReal_int,
      div_eq_mul_inv]

example : roundDigits 0 (5 / 2 : ℝ) = 2 := by
  rw [roundDigits_real]
  have h : ⌊(5 / 2 : ℝ)⌋ = 2 := by rw [Int.floor_eq_iff]; norm_num
  norm_num [rintReal, Int.fract, h]

/-- `x[:] = a` gives every entry of `x` the value `a`. -/
theorem C68_fill (h : List (Op K)) {j : Nat} {shape : List Nat} {vals : List K} (a : K)
    (hx : IsArray (after h) j shape vals) :
    IsArray (after (h ++ [.fill j a])) j shape (List.replicate vals.length a) := by
  obtain ⟨v, ho, rfl, rfl⟩ := isArray_iff.mp hx
  have hI : Inv (after h) (regions h) := inv_run h
  have hv := view_of_objs ho
  have he : (after h).effect (after h).objs.length (.fill j a)
      = .ok (writeAll (after h).mem v (List.replicate v.idx.length a), []) := by
    simp [State.effect, hv]
  have hst := step_ok he
  rw [← after_snoc] at hst
  refine isArray_iff.mpr ⟨v, objs_after ho _, rfl, ?_⟩
  rw [hst, read_writeAll (hI.view hv).2 (by simp)]
  simp [State.read]

/-- `x += y` (for 1D arrays of the same length) adds `y` to `x` in place and returns `x`. -/
theorem C68_iadd (h : List (Op K)) {j k : Nat} {m : Nat} {vals vals' : List K}
    (hx : IsArray (after h) j [m] vals) (hy : IsArray (after h) k [m] vals') (hl : vals.length = vals'.length) :
    IsArray (after (h ++ [.iadd j k])) j [m] (List.zipWith PyNum.add vals vals') ∧
    ∀ h', (after (h ++ [.iadd j k] ++ h')).value h.length 0 = (after (h ++ [.iadd j k] ++ h')).value j 0 := by
  obtain ⟨v, ho, hsv, rfl⟩ := isArray_iff.mp hx
  obtain ⟨w, hw, hsw, rfl⟩ := isArray_iff.mp hy
  have hI : Inv (after h) (regions h) := inv_run h
  have hv := view_of_objs ho
  have hw' := view_of_objs hw
  obtain ⟨z, hz⟩ : ∃ z, z = List.zipWith PyNum.add ((after h).read v) ((after h).read w) := ⟨_, rfl⟩
  have hzl : z.length = v.idx.length := by
    rw [hz, List.length_zipWith, ← hl]; simp [State.read]
  have he : (after h).effect (after h).objs.length (.iadd j k) = .ok (writeAll (after h).mem v z, [v]) := by
    simp [State.effect, hv, hw', vadd, broadcast2, hl, ← hz, hzl]
  have hst := step_ok he
  rw [← after_snoc] at hst
  have hoj : (after (h ++ [.iadd j k])).objs[j]? = some (Except.ok [v]) := objs_after ho _
  have hon : (after (h ++ [.iadd j k])).objs[h.length]? = some (Except.ok [v]) := by
    rw [hst]; simp [← len_after h]
  refine ⟨isArray_iff.mpr ⟨v, hoj, hsv, ?_⟩, fun h' => ?_⟩
  · rw [← hz, hst, read_writeAll (hI.view hv).2 hzl]
  · rw [value_eq (objs_after hon h'), value_eq (objs_after hoj h')]

/-! ### Shared memory: views, and `Point` / `Vector` / compound objects built from arrays -/

/-- `Point(x)` / `Vector(x)` of an existing array `x` succeeds exactly when `x` is a valid 1D array, and is then
the same array for ever: whatever happens to one of the two happens to the other. -/
theorem C68_point_aliases (h : List (Op K)) {j : Nat} {shape : List Nat} {vals : List K}
    (hx : IsArray (after h) j shape vals) :
    (∀ b, newArray1D ⟨shape, vals⟩ = .ok b →
      IsArray (after (h ++ [.new1D (.obj j)])) h.length shape vals ∧
      ∀ h', (after (h ++ [.new1D (.obj j)] ++ h')).value h.length 0 = (after (h ++ [.new1D (.obj j)] ++ h')).value j 0) ∧
    (∀ e, newArray1D ⟨shape, vals⟩ = .error e → ∀ h' i, (after (h ++ [.new1D (.obj j)] ++ h')).value h.length i = none) := by
  obtain ⟨v, ho, rfl, rfl⟩ := isArray_iff.mp hx
  have hv := view_of_objs ho
  constructor
  · intro b hb
    have he : (after h).effect (after h).objs.length (.new1D (.obj j)) = .ok ((after h).mem, [v]) := by
      simp [State.effect, State.new1D, State.eval, State.asarray, hv, hb]
    have hst := step_ok he
    rw [← after_snoc] at hst
    have hoj : (after (h ++ [.new1D (.obj j)])).objs[j]? = some (Except.ok [v]) := objs_after ho _
    have hon : (after (h ++ [.new1D (.obj j)])).objs[h.length]? = some (Except.ok [v]) := by
      rw [hst]; simp [← len_after h]
    refine ⟨isArray_iff.mpr ⟨v, hon, rfl, ?_⟩, fun h' => ?_⟩
    · rw [hst]; rfl
    · rw [value_eq (objs_after hon h'), value_eq (objs_after hoj h')]
  · intro e hb h' i
    have he : (after h).effect (after h).objs.length (.new1D (.obj j)) = .error e := by
      simp [State.effect, State.new1D, State.eval, State.asarray, hv, hb]
    have hst := step_error he
    rw [← after_snoc] at hst
    have hon : (after (h ++ [.new1D (.obj j)])).objs[h.length]? = some (Except.error e) := by
      rw [hst]; simp [← len_after h]
    unfold State.value
    rw [objs_after hon h']

/-- A row of a 2D array (`points[i]`) is for ever the `i`-th row of the array: rounding or assigning to the row
changes the array and vice versa. -/
theorem C68_row_is_view (h : List (Op K)) {j m w i : Nat} {vals : List K} (hi : i < m)
    (hx : IsArray (after h) j [m, w] vals) (h' : List (Op K)) :
    ∃ vals', (after (h ++ [.row j i] ++ h')).value j 0 = some ([m, w], vals') ∧
      (after (h ++ [.row j i] ++ h')).value h.length 0 = some ([w], (vals'.drop (i * w)).take w) := by
  obtain ⟨v, ho, hsh, rfl⟩ := isArray_iff.mp hx
  have hv := view_of_objs ho
  have he : (after h).effect (after h).objs.length (.row j i)
      = .ok ((after h).mem, [⟨v.buf, (v.idx.drop (i * w)).take w, [w]⟩]) := by
    simp [State.effect, hv, hsh, hi]
  have hst := step_ok he
  rw [← after_snoc] at hst
  have hoj : (after (h ++ [.row j i])).objs[j]? = some (Except.ok [v]) := objs_after ho _
  have hon : (after (h ++ [.row j i])).objs[h.length]?
      = some (Except.ok [⟨v.buf, (v.idx.drop (i * w)).take w, [w]⟩]) := by
    rw [hst]; simp [← len_after h]
  refine ⟨_, by rw [value_eq (objs_after hoj h')]; simp [hsh]; rfl, ?_⟩
  rw [value_eq (objs_after hon h')]
  simp [State.read, List.map_take, List.map_drop]

/-- A slice `x[lo:hi]` of a 1D array is for ever the corresponding part of the array. -/
theorem C68_slice_is_view (h : List (Op K)) {j lo hi m : Nat} {vals : List K}
    (hx : IsArray (after h) j [m] vals) (h' : List (Op K)) :
    ∃ vals', (after (h ++ [.slice j lo hi] ++ h')).value j 0 = some ([m], vals') ∧
      (after (h ++ [.slice j lo hi] ++ h')).value h.length 0
        = some ([((vals'.take hi).drop lo).length], (vals'.take hi).drop lo) := by
  obtain ⟨v, ho, hsh, rfl⟩ := isArray_iff.mp hx
  have hv := view_of_objs ho
  have he : (after h).effect (after h).objs.length (.slice j lo hi)
      = .ok ((after h).mem, [⟨v.buf, (v.idx.take hi).drop lo, [((v.idx.take hi).drop lo).length]⟩]) := by
    simp [State.effect, hv, hsh]
  have hst := step_ok he
  rw [← after_snoc] at hst
  have hoj : (after (h ++ [.slice j lo hi])).objs[j]? = some (Except.ok [v]) := objs_after ho _
  have hon : (after (h ++ [.slice j lo hi])).objs[h.length]?
      = some (Except.ok [⟨v.buf, (v.idx.take hi).drop lo, [((v.idx.take hi).drop lo).length]⟩]) := by
    rw [hst]; simp [← len_after h]
  refine ⟨_, by rw [value_eq (objs_after hoj h')]; simp [hsh]; rfl, ?_⟩
  rw [value_eq (objs_after hon h')]
  simp [State.read, List.map_take, List.map_drop]

/-- A slice `x[lo:hi]` of a 2D array consists for ever of the rows `lo`, ..., `hi - 1` of the array. -/
theorem C68_slice2_is_view (h : List (Op K)) {j lo hi m w : Nat} {vals : List K}
    (hx : IsArray (after h) j [m, w] vals) (h' : List (Op K)) :
    ∃ vals', (after (h ++ [.slice j lo hi] ++ h')).value j 0 = some ([m, w], vals') ∧
      (after (h ++ [.slice j lo hi] ++ h')).value h.length 0
        = some ([min hi m - lo, w], (vals'.take (hi * w)).drop (lo * w)) := by
  obtain ⟨v, ho, hsh, rfl⟩ := isArray_iff.mp hx
  have hv := view_of_objs ho
  have he : (after h).effect (after h).objs.length (.slice j lo hi)
      = .ok ((after h).mem, [⟨v.buf, (v.idx.take (hi * w)).drop (lo * w), [min hi m - lo, w]⟩]) := by
    simp [State.effect, hv, hsh]
  have hst := step_ok he
  rw [← after_snoc] at hst
  have hoj : (after (h ++ [.slice j lo hi])).objs[j]? = some (Except.ok [v]) := objs_after ho _
  have hon : (after (h ++ [.slice j lo hi])).objs[h.length]?
      = some (Except.ok [⟨v.buf, (v.idx.take (hi * w)).drop (lo * w), [min hi m - lo, w]⟩]) := by
    rw [hst]; simp [← len_after h]
  refine ⟨_, by rw [value_eq (objs_after hoj h')]; simp [hsh]; rfl, ?_⟩
  rw [value_eq (objs_after hon h')]
  simp [State.read, List.map_take, List.map_drop]

/-- Two arrays of which the first refers to the entries of the second at the positions `lo ≤ k < hi`: writing to
the first leaves the other entries of the second unchanged. -/
theorem write_outside {h : List (Op K)} {op : Op K} {t j lo hi : Nat} {v w : View} (ht : target op = some t)
    (hw : (after h).objs[t]? = some (Except.ok [w])) (hv : (after h).objs[j]? = some (Except.ok [v]))
    (hb : w.buf = v.buf) (hidx : w.idx = (v.idx.take hi).drop lo) {k : Nat} (hk : k < lo ∨ hi ≤ k) :
    ((after (h ++ [op])).read v)[k]? = ((after h).read v)[k]? := by
  have hI : Inv (after h) (regions h) := inv_run h
  rw [after_snoc]
  rcases he : (after h).effect (after h).objs.length op with e | ⟨m, us⟩
  · rw [step_error he]; rfl
  · rw [step_ok he]
    simp only [State.read, List.getElem?_map]
    rcases hp : v.idx[k]? with _ | p
    · rfl
    · have hnd := (hI.wf _ _ hv v (by simp)).1
      have hpw : p ∉ w.idx := by
        rw [hidx]
        intro hmem
        obtain ⟨l, hl⟩ := List.getElem?_of_mem hmem
        rw [List.getElem?_drop, List.getElem?_take] at hl
        split at hl
        · rename_i hlt
          obtain ⟨h1, e1⟩ := List.getElem?_eq_some_iff.mp hl
          obtain ⟨h2, e2⟩ := List.getElem?_eq_some_iff.mp hp
          have := (List.Nodup.getElem_inj_iff hnd).mp (e1.trans e2.symm)
          omega
        · cases hl
      have := effect_cell hI he ht (view_of_objs hw) hpw
      rw [hb] at this
      simp [List.getD, this]

/-- Writing to a row of a 2D array (rounding it, assigning to it, adding to it) leaves the other rows unchanged: only
the entries `i * w`, ..., `i * w + w - 1` of the array change. -/
theorem C68_write_row_only (h : List (Op K)) {j m w i : Nat} {vals : List K} (hi : i < m)
    (hx : IsArray (after h) j [m, w] vals) (h' : List (Op K)) {op : Op K} (ht : target op = some h.length) :
    ∃ vals' vals'', (after (h ++ [.row j i] ++ h')).value j 0 = some ([m, w], vals') ∧
      (after (h ++ [.row j i] ++ h' ++ [op])).value j 0 = some ([m, w], vals'') ∧
      ∀ k, (k < i * w ∨ i * w + w ≤ k) → vals''[k]? = vals'[k]? := by
  obtain ⟨v, ho, hsh, rfl⟩ := isArray_iff.mp hx
  have hv := view_of_objs ho
  have he : (after h).effect (after h).objs.length (.row j i)
      = .ok ((after h).mem, [⟨v.buf, (v.idx.drop (i * w)).take w, [w]⟩]) := by
    simp [State.effect, hv, hsh, hi]
  have hst := step_ok he
  rw [← after_snoc] at hst
  have hoj : (after (h ++ [.row j i])).objs[j]? = some (Except.ok [v]) := objs_after ho _
  have hon : (after (h ++ [.row j i])).objs[h.length]?
      = some (Except.ok [⟨v.buf, (v.idx.drop (i * w)).take w, [w]⟩]) := by
    rw [hst]; simp [← len_after h]
  refine ⟨_, _, by rw [value_eq (objs_after hoj h')]; simp [hsh]; rfl,
    by rw [value_eq (objs_after (objs_after hoj h') _)]; simp [hsh]; rfl, fun k hk => ?_⟩
  have := write_outside ht (objs_after hon h') (objs_after hoj h') rfl List.take_drop hk
  simpa using this

/-- Writing to a slice of a 1D array leaves the entries outside the slice unchanged. -/
theorem C68_write_slice_only (h : List (Op K)) {j lo hi m : Nat} {vals : List K}
    (hx : IsArray (after h) j [m] vals) (h' : List (Op K)) {op : Op K} (ht : target op = some h.length) :
    ∃ vals' vals'', (after (h ++ [.slice j lo hi] ++ h')).value j 0 = some ([m], vals') ∧
      (after (h ++ [.slice j lo hi] ++ h' ++ [op])).value j 0 = some ([m], vals'') ∧
      ∀ k, (k < lo ∨ hi ≤ k) → vals''[k]? = vals'[k]? := by
  obtain ⟨v, ho, hsh, rfl⟩ := isArray_iff.mp hx
  have hv := view_of_objs ho
  have he : (after h).effect (after h).objs.length (.slice j lo hi)
      = .ok ((after h).mem, [⟨v.buf, (v.idx.take hi).drop lo, [((v.idx.take hi).drop lo).length]⟩]) := by
    simp [State.effect, hv, hsh]
  have hst := step_ok he
  rw [← after_snoc] at hst
  have hoj : (after (h ++ [.slice j lo hi])).objs[j]? = some (Except.ok [v]) := objs_after ho _
  have hon : (after (h ++ [.slice j lo hi])).objs[h.length]?
      = some (Except.ok [⟨v.buf, (v.idx.take hi).drop lo, [((v.idx.take hi).drop lo).length]⟩]) := by
    rw [hst]; simp [← len_after h]
  refine ⟨_, _, by rw [value_eq (objs_after hoj h')]; simp [hsh]; rfl,
    by rw [value_eq (objs_after (objs_after hoj h') _)]; simp [hsh]; rfl, fun k hk => ?_⟩
  have := write_outside ht (objs_after hon h') (objs_after hoj h') rfl rfl hk
  simpa using this

/-- `x[i] = a` changes entry `i` (in C order) and no other entry of `x`; an index that is out of range changes
nothing at all. -/
theorem C68_set_item (h : List (Op K)) {j : Nat} {shape : List Nat} {vals : List K} (i : Nat) (a : K)
    (hx : IsArray (after h) j shape vals) :
    (i < vals.length → IsArray (after (h ++ [.setItem j i a])) j shape (vals.set i a)) ∧
    (vals.length ≤ i → ∀ k l, k < h.length → (after (h ++ [.setItem j i a])).value k l = (after h).value k l) := by
  obtain ⟨v, ho, rfl, rfl⟩ := isArray_iff.mp hx
  have hI : Inv (after h) (regions h) := inv_run h
  have hv := view_of_objs ho
  have hOK := (hI.view hv).2
  have hlen : ((after h).read v).length = v.idx.length := by simp [State.read]
  constructor
  · intro hi
    rw [hlen] at hi
    have he : (after h).effect (after h).objs.length (.setItem j i a) = .ok (write1 (after h).mem v i a, []) := by
      simp [State.effect, hv, hi]
    have hst := step_ok he
    rw [← after_snoc] at hst
    refine isArray_iff.mpr ⟨v, objs_after ho _, rfl, ?_⟩
    rw [hst]
    have hw : write1 (after h).mem v i a v.buf = ((after h).mem v.buf).set v.idx[i] a := by
      unfold write1; rw [List.getElem?_eq_getElem hi]; simp [setBuf_eq]
    apply List.ext_getElem?
    intro k
    simp only [State.read, List.getElem?_map, List.getElem?_set, hw, List.length_map, List.getD]
    rcases hk : v.idx[k]? with _ | p
    · have : ¬ i = k := by rintro rfl; rw [List.getElem?_eq_getElem hi] at hk; cases hk
      simp [this]
    · obtain ⟨hkl, rfl⟩ := List.getElem?_eq_some_iff.mp hk
      by_cases hik : i = k
      · subst hik
        have := hOK.2.1 _ (List.getElem_mem hi)
        simp [hi, this]
      · have : v.idx[i] ≠ v.idx[k] := fun e => hik ((List.Nodup.getElem_inj_iff hOK.1).mp e)
        simp [hik, this]
  · intro hi k l hk
    rw [hlen] at hi
    have he : ∃ e, (after h).effect (after h).objs.length (.setItem j i a) = .error e := by
      simp [State.effect, hv, Nat.not_lt.mpr hi]
    obtain ⟨e, he⟩ := he
    have hst := step_error he
    rw [← after_snoc] at hst
    unfold State.value
    rw [hst]
    simp only [State.read]
    rw [List.getElem?_append_left (by rw [len_after]; exact hk)]

theorem newList_view {s : State K} {n : Nat} (xs : List (Src K)) :
    ∀ (i : Nat) (mem : Addr → List K) (m : Addr → List K) (vs : List View),
      State.newList { s with mem := mem } n i xs = .ok (m, vs) → vs.length = xs.length ∧
      ∀ (k j : Nat), xs[k]? = some (Src.obj j) → ∃ v, vs[k]? = some v ∧ s.view j = .ok v := by
  induction xs with
  | nil =>
    intro i mem m vs h
    simp only [State.newList, Except.ok.injEq, Prod.mk.injEq] at h
    obtain ⟨rfl, rfl⟩ := h
    simp
  | cons x xs ih =>
    intro i mem m vs h
    simp only [State.newList, bind_ok_iff] at h
    obtain ⟨⟨m1, v⟩, h1, ⟨m2, ws⟩, h2, h3⟩ := h
    simp only [pure_ok, Except.ok.injEq, Prod.mk.injEq] at h3
    obtain ⟨rfl, rfl⟩ := h3
    obtain ⟨hl, hk⟩ := ih (i + 1) m1 m2 ws h2
    refine ⟨by simp [hl], ?_⟩
    intro k j hkj
    cases k with
    | zero =>
      simp only [List.getElem?_cons_zero, Option.some.injEq] at hkj
      subst hkj
      simp only [State.new1D, bind_ok_iff, State.asarray, pure_ok, Except.ok.injEq, Prod.mk.injEq] at h1
      obtain ⟨-, -, -, -, v, hv, -, rfl⟩ := h1
      exact ⟨v, rfl, hv⟩
    | succ k => exact hk k j (by simpa using hkj)

/-- An object built from arrays (a `Line` from a point and a direction, a `Triangle` from three points, ...)
keeps referring to the caller's arrays: each stored array is for ever the same as the array it was built from. -/
theorem C68_fields_alias (h : List (Op K)) {check : List (List K) → Res Unit} {xs : List (Src K)} {i j : Nat}
    (hi : xs[i]? = some (.obj j)) (hb : (after (h ++ [.build check xs])).value h.length i ≠ none) (h' : List (Op K)) :
    (after (h ++ [.build check xs] ++ h')).value h.length i = (after (h ++ [.build check xs] ++ h')).value j 0 := by
  rcases he : (after h).effect (after h).objs.length (.build check xs) with e | ⟨m, vs⟩
  · have hst := step_error he
    rw [← after_snoc] at hst
    exfalso; apply hb
    unfold State.value
    rw [hst]; simp [← len_after h]
  · have hst := step_ok he
    rw [← after_snoc] at hst
    have hon : (after (h ++ [.build check xs])).objs[h.length]? = some (Except.ok vs) := by
      rw [hst]; simp [← len_after h]
    simp only [State.effect, bind_ok_iff, pure_ok, Except.ok.injEq, Prod.mk.injEq] at he
    obtain ⟨⟨m', ws⟩, h1, -, -, rfl, rfl⟩ := he
    obtain ⟨-, hk⟩ := newList_view (s := after h) xs 0 (after h).mem _ _ h1
    obtain ⟨v, hv, hw⟩ := hk i j hi
    have hoj := objs_after (objs_of_view hw) ([.build check xs] ++ h')
    rw [← List.append_assoc] at hoj
    rw [value_eq (objs_after hon h'), value_eq hoj, hv]
    rfl

/-- Reading an attribute (`line.point`) gives the stored array itself, for ever. -/
theorem C68_attribute_is_field (h : List (Op K)) {j i : Nat} (hv : (after h).value j i ≠ none) (h' : List (Op K)) :
    (after (h ++ [.field j i] ++ h')).value h.length 0 = (after (h ++ [.field j i] ++ h')).value j i := by
  rcases hs : (after h).objs[j]? with _ | (e | vs)
  · unfold State.value at hv; rw [hs] at hv; exact absurd rfl hv
  · unfold State.value at hv; rw [hs] at hv; exact absurd rfl hv
  · rcases hw : vs[i]? with _ | w
    · rw [value_eq hs, hw] at hv; exact absurd rfl hv
    · have he : (after h).effect (after h).objs.length (.field j i) = .ok ((after h).mem, [w]) := by
        simp [State.effect, hs, hw]
      have hst := step_ok he
      rw [← after_snoc] at hst
      have hon : (after (h ++ [.field j i])).objs[h.length]? = some (Except.ok [w]) := by
        rw [hst]; simp [← len_after h]
      have hoj := objs_after (objs_after hs [.field j i]) h'
      rw [value_eq (objs_after hon h'), value_eq hoj, hw]
      rfl

/-! ### Copies -/

omit [PyNum K] in
theorem opRegions_lt {rs : List (List Addr)} {n : Nat} (hn : rs.length = n) (h : ∀ r ∈ rs, ∀ a ∈ r, a.1 < n) (op : Op K) :
    ∀ a ∈ opRegions rs op, a.1 < n + 1 := by
  have hd : ∀ (j : Nat) (d : Addr), d.1 < n + 1 → ((rs.getD j []).headD d).1 < n + 1 := by
    intro j d hd
    rcases hr : rs[j]? with _ | r
    · simpa [List.getD, hr] using hd
    · rcases r with _ | ⟨a, r⟩
      · simpa [List.getD, hr] using hd
      · have := h _ (List.mem_of_getElem? hr) a (by simp)
        simpa [List.getD, hr] using Nat.lt_succ_of_lt this
  have hsrc : ∀ (x : Src K) (d : Addr), d.1 < n + 1 → (srcRegion rs d x).1 < n + 1 := by
    intro x d hdd
    cases x with
    | list vals => exact hdd
    | rows shape vals => exact hdd
    | obj j => exact hd j d hdd
  intro a ha
  cases op with
  | array x => simp [opRegions] at ha; subst ha; simp [hn]
  | new1D x => simp only [opRegions, List.mem_singleton] at ha; subst ha; exact hsrc x _ (by simp [hn])
  | newPoints x => simp [opRegions] at ha; subst ha; simp [hn]
  | toArray j => simp [opRegions] at ha; subst ha; simp [hn]
  | row j i => simp only [opRegions, List.mem_singleton] at ha; subst ha; exact hd j _ (by simp [hn])
  | slice j lo hi => simp only [opRegions, List.mem_singleton] at ha; subst ha; exact hd j _ (by simp [hn])
  | add j k => simp [opRegions] at ha; subst ha; simp [hn]
  | setDimension j dim => simp [opRegions] at ha; subst ha; simp [hn]
  | round j d => simp only [opRegions, List.mem_singleton] at ha; subst ha; exact hd j _ (by simp [hn])
  | roundWrap j d => simp [opRegions] at ha; subst ha; simp [hn]
  | setItem j i v => simp [opRegions] at ha
  | fill j v => simp [opRegions] at ha
  | iadd j k => simp only [opRegions, List.mem_singleton] at ha; subst ha; exact hd j _ (by simp [hn])
  | build check xs =>
    simp only [opRegions, List.mem_mapIdx] at ha
    obtain ⟨i, hi, rfl⟩ := ha
    exact hsrc _ _ (by simp [hn])
  | call f args => simp [opRegions] at ha; subst ha; simp [hn]
  | field j i =>
    simp only [opRegions, List.mem_singleton] at ha
    subst ha
    rcases hr : rs[j]? with _ | r
    · simp [List.getD, hr, hn]
    · rcases hi : r[i]? with _ | b
      · simp [List.getD, hr, hi, hn]
      · have := h _ (List.mem_of_getElem? hr) b (List.mem_of_getElem? hi)
        simpa [List.getD, hr, hi] using Nat.lt_succ_of_lt this

omit [PyNum K] in
theorem regions_lt (h : List (Op K)) : ∀ r ∈ regions h, ∀ a ∈ r, a.1 < h.length := by
  induction h using List.reverseRecOn with
  | nil => simp [regions]
  | append_singleton h op ih =>
    intro r hr a ha
    have e : regions (h ++ [op]) = regions h ++ [opRegions (regions h) op] := by simp [regions]
    rw [e, List.mem_append, List.mem_singleton] at hr
    rw [List.length_append, List.length_singleton]
    rcases hr with hr | rfl
    · exact Nat.lt_succ_of_lt (ih r hr a ha)
    · exact opRegions_lt (regions_length h) ih op a ha

/-- Their result shares memory with no earlier object: writing to it changes no earlier object, and writing to
an earlier object does not change it (by `C68_frame`). -/
theorem C68_copy_is_fresh (h : List (Op K)) {op : Op K} (hop : Allocates op) {j : Nat} (hj : j < h.length) (i : Nat) :
    ¬ Share (h ++ [op]) h.length 0 j i ∧ ¬ Share (h ++ [op]) j i h.length 0 := by
  have key : ¬ Share (h ++ [op]) h.length 0 j i := by
    rintro ⟨a, h1, h2⟩
    rw [region_prefix hj] at h2
    have e : regions (h ++ [op]) = regions h ++ [opRegions (regions h) op] := by simp [regions]
    have ha : a = (h.length, 0) := by
      unfold region at h1
      rw [e, List.getD, List.getElem?_append_right (by rw [regions_length])] at h1
      rw [regions_length] at h1
      cases op <;> simp_all [Allocates, opRegions, regions_length]
    unfold region at h2
    rcases hr : (regions h)[j]? with _ | r
    · simp [List.getD, hr] at h2
    · have h2' : r[i]? = some a := by simpa [List.getD, hr] using h2
      have := regions_lt h r (List.mem_of_getElem? hr) a (List.mem_of_getElem? h2')
      rw [ha] at this
      exact lt_irrefl _ this
  exact ⟨key, fun ⟨a, h1, h2⟩ => key ⟨a, h2, h1⟩⟩

/-- The result of a copy has the values of its source when it is made, and nothing written to another earlier
object, however often, changes it: it changes only through itself or an alias of it. -/
theorem C68_copy_values (h : List (Op K)) {j : Nat} {shape : List Nat} {vals : List K}
    (hx : IsArray (after h) j shape vals) :
    IsArray (after (h ++ [.toArray j])) h.length shape vals ∧
    IsArray (after (h ++ [.array (.obj j)])) h.length shape vals ∧
    (∀ b, newArray2D ⟨shape, vals⟩ = .ok b → IsArray (after (h ++ [.newPoints (.obj j)])) h.length b.shape b.data) := by
  obtain ⟨v, ho, rfl, rfl⟩ := isArray_iff.mp hx
  have hv := view_of_objs ho
  have main : ∀ (op : Op K) (shape : List Nat) (vals : List K), (after h).effect (after h).objs.length op
      = .ok (setBuf (after h).mem ((after h).objs.length, 0) vals, [fresh ((after h).objs.length, 0) shape vals.length]) →
      IsArray (after (h ++ [op])) h.length shape vals := by
    intro op shape vals he
    have hst := step_ok he
    rw [← after_snoc] at hst
    refine isArray_iff.mpr ⟨fresh ((after h).objs.length, 0) shape vals.length, ?_, rfl, ?_⟩
    · rw [hst]; simp [← len_after h]
    · rw [hst]; exact read_fresh _ _ _ _ _
  refine ⟨main _ _ _ ?_, main _ _ _ ?_, fun b hb => main _ _ _ ?_⟩
  · simp [State.effect, hv]
  · simp [State.effect, State.eval, hv]
  · simp [State.effect, State.newPoints, State.eval, hv, hb]

/-! ### Consequences: the checks of a constructor can be bypassed (defect) -/

/-- The checks of `Line(point, direction)`, on the values stored. -/
noncomputable def lineCheck : List (List ℝ) → Res Unit
  | [p, d] => do let _ ← Line.new p d; pure ()
  | _ => .error (.typeError "wrong number of arguments")

theorem after_one (x : List ℝ) : after [.array (.list x)] =
    (⟨setBuf (fun _ => []) (0, 0) x, [.ok [fresh (0, 0) [x.length] x.length]]⟩ : State ℝ) := rfl

theorem lineBuild_ok {n : ℕ} [NeZero n] {p d : E n} (hd : d ≠ 0) :
    (after [.array (.list (arr d)), .build lineCheck [.list (arr p), .obj 0]]).value 1 1 = some ([n], arr d) := by
  have h1 : newArray1D (⟨[n], arr d⟩ : NDArray ℝ) = .ok ⟨[n], arr d⟩ := by
    simp [newArray1D, newArray, NDArray.ndim, NDArray.size, NeZero.ne]
  have h2 : newArray1D (⟨[n], arr p⟩ : NDArray ℝ) = .ok ⟨[n], arr p⟩ := by
    simp [newArray1D, newArray, NDArray.ndim, NDArray.size, NeZero.ne]
  have hlc : lineCheck [arr p, arr d] = .ok () := by
    simp [lineCheck, Line.new, newLinePlane, hd]
  have hn : (arr d).length = n := length_arr d
  have hp : (arr p).length = n := length_arr p
  have r1 : ∀ objs, State.read (K := ℝ) ⟨setBuf (fun _ => []) (0, 0) (arr d), objs⟩ ⟨(0, 0), List.range n, [n]⟩ = arr d := by
    intro objs
    have := read_fresh (fun _ => []) (0, 0) [n] (arr d) objs
    rwa [hn] at this
  have r2 : ∀ objs, State.read (K := ℝ) ⟨setBuf (setBuf (fun _ => []) (0, 0) (arr d)) (1, 0) (arr p), objs⟩
      ⟨(1, 0), List.range n, [n]⟩ = arr p := by
    intro objs
    have := read_fresh (setBuf (fun _ => []) (0, 0) (arr d)) (1, 0) [n] (arr p) objs
    rwa [hp] at this
  have r3 : ∀ objs, State.read (K := ℝ) ⟨setBuf (setBuf (fun _ => []) (0, 0) (arr d)) (1, 0) (arr p), objs⟩
      ⟨(0, 0), List.range n, [n]⟩ = arr d := by
    intro objs
    exact (read_congr (s := ⟨setBuf (fun _ => []) (0, 0) (arr d), objs⟩) (by simp [setBuf])).trans (r1 objs)
  have he : (after [.array (.list (arr d))]).effect 1 (.build lineCheck [.list (arr p), .obj 0])
      = .ok (setBuf (setBuf (fun _ => []) (0, 0) (arr d)) (1, 0) (arr p),
          [⟨(1, 0), List.range n, [n]⟩, ⟨(0, 0), List.range n, [n]⟩]) := by
    rw [after_one]
    simp only [State.effect, State.newList, State.new1D, State.eval, State.asarray, State.view, fresh, hn, hp,
      ok_bind, pure_ok, h2, List.getElem?_cons_zero, r3, h1, List.map_cons, List.map_nil, r2, hlc]
  have hst := step_ok (s := after [.array (.list (arr d))]) he
  rw [← after_snoc] at hst
  show (after ([.array (.list (arr d))] ++ [.build lineCheck [.list (arr p), .obj 0]])).value 1 1 = _
  rw [hst, after_one]
  simp [State.value, r3]

/-- Defect.  For every valid line built from an array `d` (`L = Line(p, d)`), assigning zero to the caller's
array (`d[:] = 0`) leaves an existing `Line` whose direction is the zero vector, which the constructor rejects.
(Operations: 0 creates `d`, 1 creates the line, 2 is the assignment; `value 1 1` is `L.direction`.) -/
theorem C68_validation_bypass_defect {n : ℕ} [NeZero n] (p d : E n) (hd : d ≠ 0) :
    (after [.array (.list (arr d)), .build lineCheck [.list (arr p), .obj 0]]).value 1 1 = some ([n], arr d) ∧
    (after [.array (.list (arr d)), .build lineCheck [.list (arr p), .obj 0], .fill 0 0]).value 1 1
      = some ([n], arr (0 : E n)) ∧
    lineCheck [arr p, arr (0 : E n)] = .error (.valueError "The vector must not be the zero vector.") := by
  have h1 := lineBuild_ok (p := p) hd
  refine ⟨h1, ?_, by simp [lineCheck, Line.new, newLinePlane]⟩
  have h2 := C68_fields_alias [.array (.list (arr d))] (check := lineCheck) (xs := [.list (arr p), .obj 0]) (i := 1) (j := 0)
    rfl (by
      show (after [.array (.list (arr d)), .build lineCheck [.list (arr p), .obj 0]]).value 1 1 ≠ none
      rw [h1]; simp)
  have h3 : (after [.array (.list (arr d)), .build lineCheck [.list (arr p), .obj 0]]).value 0 0 = some ([n], arr d) :=
    (h2 []).symm.trans h1
  have h4 : IsArray (after [.array (.list (arr d)), .build lineCheck [.list (arr p), .obj 0]]) 0 [n] (arr d) := by
    refine ⟨h3, ?_⟩
    have := C68_frame [.array (.list (arr d))] (.build lineCheck [.list (arr p), .obj 0]) (j := 0) (by simp) 1
      (by simp [target])
    exact this.trans (by rw [after_one]; rfl)
  have h5 := (C68_fill _ (0 : ℝ) h4).1
  refine (h2 [.fill 0 0]).trans (h5.trans ?_)
  congr 2
  apply List.ext_getElem <;> simp [arr]

/-- Rounding a vertex obtained from a triangle (`triangle.point_a.round(d)`), or any attribute of a compound
object, changes the object itself: for every history, reading attribute `i` of the object `j` and rounding it
leaves `j` with the rounded values. -/
theorem C68_rounding_an_attribute (h : List (Op K)) {j i : Nat} {shape : List Nat} {vals : List K} (d : Int)
    (hv : (after h).value j i = some (shape, vals)) :
    (after (h ++ [.field j i, .round h.length d])).value j i = some (shape, vals.map (roundDigits d)) := by
  have hne : (after h).value j i ≠ none := by rw [hv]; simp
  have hj : j < h.length := by
    by_contra hlt
    apply hne
    have : (after h).objs[j]? = none := List.getElem?_eq_none_iff.mpr (by rw [len_after]; omega)
    unfold State.value; rw [this]
  have ha := C68_attribute_is_field h hne
  have h0 : (after (h ++ [.field j i])).value j i = some (shape, vals) := by
    rw [C68_frame h _ hj i (by simp [target]), hv]
  have h1 := ha []
  rw [List.append_nil, h0] at h1
  have h2 : IsArray (after (h ++ [.field j i])) h.length shape vals := by
    refine ⟨h1, ?_⟩
    rcases he : (after h).effect (after h).objs.length (.field j i) with e | ⟨m, vs⟩
    · have hst := step_error he
      rw [← after_snoc] at hst
      rw [hst, ← len_after h]; simp [State.value]
    · have hst := step_ok he
      rw [← after_snoc] at hst
      rw [hst, ← len_after h]
      have hone : vs.length = 1 := by
        simp only [State.effect] at he
        split at he
        · split at he
          · cases he; rfl
          · cases he
        · cases he
      have hnone : vs[1]? = none := List.getElem?_eq_none_iff.mpr (by omega)
      simp [State.value, hnone]
  have h3 := (C68_round_in_place _ d h2).1.1
  have h4 := ha [.round h.length d]
  rw [List.append_assoc] at h3 h4
  exact h4.symm.trans h3

/-! ### The hypotheses are met -/

/-- A caller's array, a `Point` of it, and a copy. -/
noncomputable def sampleHistory : List (Op ℝ) := [.array (.list [5 / 2, 1]), .new1D (.obj 0), .toArray 0]

theorem sample_arrays : IsArray (after sampleHistory) 0 [2] [5 / 2, 1] ∧ IsArray (after sampleHistory) 1 [2] [5 / 2, 1] ∧
    IsArray (after sampleHistory) 2 [2] [5 / 2, 1] := by
  have h0 : IsArray (after [.array (.list [5 / 2, 1])]) 0 [2] ([5 / 2, 1] : List ℝ) := by
    constructor <;> rw [after_one] <;> simp [State.value, State.read, fresh, setBuf, List.range_succ]
  have hn : newArray1D (⟨[2], [5 / 2, 1]⟩ : NDArray ℝ) = .ok ⟨[2], [5 / 2, 1]⟩ := by
    simp [newArray1D, newArray, NDArray.ndim, NDArray.size]
  obtain ⟨h1, h1'⟩ := (C68_point_aliases _ h0).1 _ hn
  have h2 : IsArray (after ([.array (.list [5 / 2, 1])] ++ [.new1D (.obj 0)])) 0 [2] ([5 / 2, 1] : List ℝ) :=
    ⟨(C68_frame _ _ (by simp) 0 (by simp [target])).trans h0.1, (C68_frame _ _ (by simp) 1 (by simp [target])).trans h0.2⟩
  have h3 := (C68_copy_values _ h2).1
  refine ⟨⟨?_, ?_⟩, ⟨?_, ?_⟩, h3⟩
  · exact (C68_frame _ (.toArray 0) (by simp) 0 (by simp [target])).trans h2.1
  · exact (C68_frame _ (.toArray 0) (by simp) 1 (by simp [target])).trans h2.2
  · exact (C68_frame _ (.toArray 0) (by simp) 0 (by simp [target])).trans h1.1
  · exact (C68_frame _ (.toArray 0) (by simp) 1 (by simp [target])).trans h1.2

/-- Rounding the `Point` rounds the caller's array and leaves the copy alone. -/
example : (after (sampleHistory ++ [.round 1 0])).value 0 0 = some ([2], [2, 1]) ∧
    (after (sampleHistory ++ [.round 1 0])).value 2 0 = some ([2], [5 / 2, 1]) := by
  obtain ⟨h0, h1, h2⟩ := sample_arrays
  have e1 : roundDigits 0 (5 / 2 : ℝ) = 2 := by
    rw [roundDigits_real]
    have h : ⌊(5 / 2 : ℝ)⌋ = 2 := by rw [Int.floor_eq_iff]; norm_num
    norm_num [rintReal, Int.fract, h]
  have e2 : roundDigits 0 (1 : ℝ) = 1 := by
    rw [roundDigits_real]; simpa using rintReal_int 1
  have hr := (C68_round_in_place _ 0 h1).1.1
  constructor
  · have hn : newArray1D (⟨[2], [5 / 2, 1]⟩ : NDArray ℝ) = .ok ⟨[2], [5 / 2, 1]⟩ := by
      simp [newArray1D, newArray, NDArray.ndim, NDArray.size]
    have h00 : IsArray (after [.array (.list [5 / 2, 1])]) 0 [2] ([5 / 2, 1] : List ℝ) := by
      constructor <;> rw [after_one] <;> simp [State.value, State.read, fresh, setBuf, List.range_succ]
    have := ((C68_point_aliases _ h00).1 _ hn).2 [.toArray 0, .round 1 0]
    refine this.symm.trans (hr.trans ?_)
    simp [e1, e2]
  · have : ¬ Share sampleHistory 1 0 2 0 := by
      have := (C68_copy_is_fresh [.array (.list [5 / 2, 1]), .new1D (.obj 0)] (op := (.toArray 0 : Op ℝ)) trivial
        (j := 1) (by simp) 0).2
      exact this
    exact (C68_frame sampleHistory _ (by simp [sampleHistory]) 0 (by intro t ht; cases ht; exact this)).trans h2.1

end Mem
end SkSpatial
