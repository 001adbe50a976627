import Verif.Inst.NpNum
import Verif.Spec.Integers
import Verif.Model.Line
import Verif.Model.Measurement
import Verif.Lemmas.Bridge
import Verif.Lemmas.Vector
/-! # Computing with `NpNum` -/

namespace SkSpatial
open NpNum

section
variable (i j : ℤ) (r s : ℝ)
@[simp] theorem np_add : (int i) +. (int j) = int (wrap (i + j)) := rfl
@[simp] theorem np_sub : (int i) -. (int j) = int (wrap (i - j)) := rfl
@[simp] theorem np_mul : (int i) *. (int j) = int (wrap (i * j)) := rfl
@[simp] theorem np_addf : (flt r) +. (flt s) = flt (r + s) := rfl
@[simp] theorem np_subf : (flt r) -. (flt s) = flt (r - s) := rfl
@[simp] theorem np_mulf : (flt r) *. (flt s) = flt (r * s) := rfl
@[simp] theorem np_mulfi : (flt r) *. (int j) = flt (r * j) := rfl
@[simp] theorem np_mulif : (int i) *. (flt s) = flt (i * s) := rfl
@[simp] theorem np_addif : (int i) +. (flt s) = flt (i + s) := rfl
@[simp] theorem np_subif : (int i) -. (flt s) = flt (i - s) := rfl
@[simp] theorem np_div (x y : NpNum) : x /. y = flt (val x / val y) := rfl
@[simp] theorem np_abs : PyNum.abs (int i) = int (wrap |i|) := rfl
@[simp] theorem np_absf : PyNum.abs (flt r) = flt |r| := rfl
@[simp] theorem np_toFloat (x : NpNum) : PyNum.toFloat x = flt (val x) := rfl
@[simp] theorem np_sqrt (x : NpNum) : PyNum.sqrt x = flt (Real.sqrt (val x)) := rfl
@[simp] theorem np_acos (x : NpNum) : PyNum.acos x = flt (Real.arccos (val x)) := rfl
@[simp] theorem np_atan2 (x y : NpNum) : PyNum.atan2 y x = flt (Complex.arg ⟨val x, val y⟩) := rfl
@[simp] theorem np_ofInt : (PyNum.ofInt i : NpNum) = int i := rfl
@[simp] theorem np_isFinite (x : NpNum) : PyNum.isFinite x = true := rfl
@[simp] theorem np_val_int : val (int i) = i := rfl
@[simp] theorem np_val_flt : val (flt r) = r := rfl
@[simp] theorem np_lt (x y : NpNum) : (x <. y) = decide (val x < val y) := by
  show @decide _ _ = @decide _ _
  congr
@[simp] theorem np_le (x y : NpNum) : (x <=. y) = decide (val x ≤ val y) := by
  show @decide _ _ = @decide _ _
  congr
@[simp] theorem np_eq (x y : NpNum) : (x ==. y) = decide (val x = val y) := by
  show @decide _ _ = @decide _ _
  congr
end

theorem wrap_eq (i : ℤ) : wrap i = Int.bmod i (2 ^ 64) := rfl

theorem wrap_fits {i : ℤ} (h : Int64 i) : wrap i = i := by
  unfold Int64 at h
  exact Int.bmod_eq_of_le (by norm_num; omega) (by norm_num; omega)

theorem fits_wrap (i : ℤ) : Int64 (wrap i) := by
  have h1 := Int.le_bmod (x := i) (m := 2 ^ 64) (by norm_num)
  have h2 := Int.bmod_lt (x := i) (m := 2 ^ 64) (by norm_num)
  norm_num at h1 h2
  unfold Int64 wrap
  constructor <;> norm_num <;> omega

theorem wrap_eq_self_iff {i : ℤ} : wrap i = i ↔ Int64 i := ⟨fun h => h ▸ fits_wrap i, wrap_fits⟩

theorem wrap_eq_zero_iff {i : ℤ} : wrap i = 0 ↔ (2 ^ 64 : ℤ) ∣ i := by
  have := Int.dvd_iff_bmod_eq_zero (a := 2 ^ 64) (b := i)
  rw [wrap, ← this]
  norm_num

@[simp] theorem wrap_add_wrap (a b : ℤ) : wrap (wrap a + wrap b) = wrap (a + b) := by simp [wrap]
@[simp] theorem wrap_wrap_add (a b : ℤ) : wrap (wrap a + b) = wrap (a + b) := by simp [wrap]
@[simp] theorem wrap_add_wrap' (a b : ℤ) : wrap (a + wrap b) = wrap (a + b) := by simp [wrap]
@[simp] theorem wrap_sub_wrap (a b : ℤ) : wrap (wrap a - wrap b) = wrap (a - b) := by simp [wrap]
@[simp] theorem wrap_mul_wrap (a b : ℤ) : wrap (wrap a * wrap b) = wrap (a * b) := by simp [wrap]
@[simp] theorem wrap_mul_wrap' (a b : ℤ) : wrap (a * wrap b) = wrap (a * b) := by simp [wrap]
@[simp] theorem wrap_wrap_mul (a b : ℤ) : wrap (wrap a * b) = wrap (a * b) := by simp [wrap]
@[simp] theorem wrap_wrap (a : ℤ) : wrap (wrap a) = wrap a := by simp [wrap]

theorem np_foldl (l : List ℤ) (a : ℤ) :
    (l.map int).foldl PyNum.add (int (wrap a)) = int (wrap (a + l.sum)) := by
  induction l generalizing a with
  | nil => simp
  | cons x xs ih => simp [ih, add_assoc]

theorem sumL_np (l : List NpNum) : sumL l = l.foldl PyNum.add zero := rfl

theorem dotv_np (a b : List NpNum) : dotv a b = sumL (List.zipWith PyNum.mul a b) := rfl

theorem np_sumL (l : List ℤ) : sumL (l.map int) = int (wrap l.sum) := by
  have := np_foldl l 0
  simpa [sumL_np, zero, show wrap 0 = 0 by decide] using this

theorem np_foldlf (l : List ℝ) (a : ℝ) : (l.map flt).foldl PyNum.add (flt a) = flt (a + l.sum) := by
  induction l generalizing a with
  | nil => simp
  | cons x xs ih => simp [ih, add_assoc]

variable {n : ℕ}

@[simp] theorem length_ints (z : Fin n → ℤ) : (ints z).length = n := by simp [ints]
@[simp] theorem length_floats (x : E n) : (floats x).length = n := by simp [floats]

theorem ints_ne (z : Fin n → ℤ) [NeZero n] : ints z ≠ [] := by
  intro h
  have := congrArg List.length h
  simp at this
  exact NeZero.ne n this

@[simp] theorem new1D_ints [NeZero n] (z : Fin n → ℤ) : new1D (ints z) = .ok (ints z) := by
  have : n ≠ 0 := NeZero.ne n
  simp [new1D, this]

theorem zipWith_ints (f : NpNum → NpNum → NpNum) (z w : Fin n → ℤ) :
    List.zipWith f (ints z) (ints w) = List.ofFn fun i => f (int (z i)) (int (w i)) := by
  apply List.ext_getElem <;> simp [ints]

@[simp] theorem vsub_ints (z w : Fin n → ℤ) :
    vsub (ints z) (ints w) = .ok (ints fun i => wrap (z i - w i)) := by
  simp only [vsub, broadcast2, length_ints, if_true, zipWith_ints]
  rfl

theorem dotv_ints (z w : Fin n → ℤ) : dotv (ints z) (ints w) = int (wrap (∑ i, z i * w i)) := by
  have h : (List.ofFn fun i => (int (z i)) *. (int (w i))) =
      (List.ofFn fun i => wrap (z i * w i)).map int := by
    simp [List.map_ofFn, Function.comp_def]
  rw [dotv_np, zipWith_ints, h, np_sumL, List.sum_ofFn]
  congr 1
  have : ∀ s : Finset (Fin n), wrap (∑ i ∈ s, wrap (z i * w i)) = wrap (∑ i ∈ s, z i * w i) := by
    intro s
    induction s using Finset.cons_induction with
    | empty => simp
    | cons a s ha ih =>
      rw [Finset.sum_cons, Finset.sum_cons, wrap_wrap_add, ← wrap_add_wrap', ih, wrap_add_wrap']
  exact this _

@[simp] theorem dot_ints (z w : Fin n → ℤ) :
    dot (ints z) (ints w) = .ok (int (wrap (∑ i, z i * w i))) := by
  simp [dot, dotv_ints]

theorem toFloats_ints (z : Fin n → ℤ) : toFloats (ints z) = floats (ofInts z) := by
  apply List.ext_getElem <;> simp [toFloats, ints, floats, ofInts]

theorem zipWith_floats (f : NpNum → NpNum → NpNum) (z w : E n) :
    List.zipWith f (floats z) (floats w) = List.ofFn fun i => f (flt (z i)) (flt (w i)) := by
  apply List.ext_getElem <;> simp [floats]

theorem np_sumLf (l : List ℝ) (h : l ≠ []) : sumL (l.map flt) = flt l.sum := by
  cases l with
  | nil => exact absurd rfl h
  | cons x xs =>
    have : (zero : NpNum) +. flt x = flt x := by simp [zero]
    simp only [sumL_np, List.map_cons, List.foldl_cons, this, np_foldlf, List.sum_cons]

theorem val_sumLf (l : List ℝ) : val (sumL (l.map flt)) = l.sum := by
  rcases eq_or_ne l [] with h | h
  · simp [h, sumL_np, zero]
  · rw [np_sumLf l h]; rfl

theorem val_dotv_floats (x y : E n) : val (dotv (floats x) (floats y)) = inner ℝ x y := by
  have h : (List.ofFn fun i => (flt (x i)) *. (flt (y i))) =
      (List.ofFn fun i => x i * y i).map flt := by
    simp [List.map_ofFn, Function.comp_def]
  rw [dotv_np, zipWith_floats, h, val_sumLf, List.sum_ofFn, PiLp.inner_apply]
  refine Finset.sum_congr rfl fun i _ => ?_
  simp [mul_comm]

@[simp] theorem norm_ints (z : Fin n → ℤ) : Vec.norm (ints z) = flt ‖ofInts z‖ := by
  simp only [Vec.norm, normv, toFloats_ints, np_sqrt, val_dotv_floats]
  rw [norm_eq_sqrt_real_inner]

theorem inner_real (z w : Fin n → ℤ) : (inner ℝ (ofInts z) (ofInts w) : ℝ) = ((∑ i, z i * w i : ℤ) : ℝ) := by
  rw [PiLp.inner_apply]
  push_cast
  refine Finset.sum_congr rfl fun i _ => ?_
  simp [ofInts, mul_comm]

theorem isclose_zero_int (d : ℤ) : isclose Tol.default (int d) (zero : NpNum) = .ok (decide (d = 0)) := by
  have h1 : ¬ ((1 : ℝ) / 1000000000 < 0) := by norm_num
  by_cases hd : d = 0
  · subst hd; simp [isclose, Tol.default, zero]
  · have h0 : (d : ℝ) ≠ 0 := by exact_mod_cast hd
    have h2 : ¬ |(d : ℝ)| ≤ |1 / 1000000000 * (d : ℝ)| := by
      rw [abs_mul, abs_of_pos (by norm_num : (0 : ℝ) < 1 / 1000000000)]
      have := abs_pos.mpr h0
      nlinarith
    have h3 : ¬ |(d : ℝ)| ≤ 0 := by simpa using h0
    simp [isclose, Tol.default, zero, hd]
    norm_num [h0] at h2 ⊢

end SkSpatial
