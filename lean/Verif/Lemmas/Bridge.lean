import Verif.Inst.Real
import Verif.Spec.Space
import Verif.Model.Objects
/-! # The array primitives of the model, computed on `arr x` -/

namespace SkSpatial

section Except
variable {α β : Type}
@[simp] theorem ok_bind (x : α) (f : α → Res β) : ((Except.ok x : Res α) >>= f) = f x := rfl
@[simp] theorem error_bind (e : Err) (f : α → Res β) :
    ((Except.error e : Res α) >>= f) = Except.error e := rfl
@[simp] theorem pure_ok (x : α) : (pure x : Res α) = Except.ok x := rfl
@[simp] theorem map_ok (x : α) (f : α → β) : f <$> (Except.ok x : Res α) = Except.ok (f x) := rfl

theorem bind_ok_iff {x : Res α} {f : α → Res β} {b : β} :
    (x >>= f) = .ok b ↔ ∃ a, x = .ok a ∧ f a = .ok b := by
  cases x <;> simp

theorem mapM_ok {γ : Type} (l : List γ) (f : γ → Res α) (g : γ → α)
    (h : ∀ x ∈ l, f x = .ok (g x)) : l.mapM f = .ok (l.map g) := by
  induction l with
  | nil => rfl
  | cons x xs ih =>
    have hx := h x (by simp)
    have hxs := ih (fun y hy => h y (by simp [hy]))
    simp [List.mapM_cons, hx, hxs]
end Except

theorem sumL_real (l : List ℝ) : sumL l = l.sum := by
  have : ∀ (l : List ℝ) (a : ℝ), l.foldl PyNum.add a = a + l.sum := by
    intro l
    induction l with
    | nil => simp
    | cons x xs ih => intro a; simp [ih, add_assoc]
  show l.foldl PyNum.add (PyNum.ofInt 0) = _
  rw [this]; simp

theorem dotv_real (a b : List ℝ) : dotv a b = sumL (List.zipWith PyNum.mul a b) := rfl

@[simp] theorem toFloats_real (l : List ℝ) : toFloats l = l := List.map_id l

@[simp] theorem wrapped_real (m : String) (l : List ℝ) : wrapped m l = .ok l := by simp [wrapped]

variable {n : ℕ}

@[simp] theorem length_arr (x : E n) : (arr x).length = n := by simp [arr]

@[simp] theorem arr_inj {x y : E n} : arr x = arr y ↔ x = y := arr_injective.eq_iff

theorem getD_arr (x : E n) (i : ℕ) (h : i < n) (d : ℝ) : (arr x).getD i d = x ⟨i, h⟩ := by
  simp [arr, List.getD_eq_getElem?_getD, h]

theorem zipWith_arr (f : ℝ → ℝ → ℝ) (x y : E n) :
    List.zipWith f (arr x) (arr y) = List.ofFn fun i => f (x i) (y i) := by
  apply List.ext_getElem <;> simp [arr]

@[simp] theorem vadd_arr (x y : E n) : vadd (arr x) (arr y) = .ok (arr (x + y)) := by
  simp only [vadd, broadcast2, length_arr, if_true, zipWith_arr]
  rfl

@[simp] theorem vsub_arr (x y : E n) : vsub (arr x) (arr y) = .ok (arr (x - y)) := by
  simp only [vsub, broadcast2, length_arr, if_true, zipWith_arr]
  rfl

@[simp] theorem smul_arr (t : ℝ) (x : E n) : smul t (arr x) = arr (t • x) := by
  apply List.ext_getElem <;> simp [smul, arr]

@[simp] theorem sdiv_arr (t : ℝ) (x : E n) : sdiv (arr x) t = arr (t⁻¹ • x) := by
  apply List.ext_getElem <;> simp [sdiv, arr, div_eq_inv_mul]

@[simp] theorem dotv_arr (x y : E n) : dotv (arr x) (arr y) = inner ℝ x y := by
  simp only [dotv_real, sumL_real, zipWith_arr, List.sum_ofFn, PiLp.inner_apply]
  refine Finset.sum_congr rfl fun i _ => ?_
  simp [mul_comm]

@[simp] theorem dot_arr (x y : E n) : dot (arr x) (arr y) = .ok (inner ℝ x y) := by
  simp [dot]

@[simp] theorem normv_arr (x : E n) : normv (arr x) = ‖x‖ := by
  simp [normv]

theorem new1D_real (l : List ℝ) (h : l ≠ []) : new1D l = .ok l := by
  simp [new1D, h]

@[simp] theorem new1D_arr [NeZero n] (x : E n) : new1D (arr x) = .ok (arr x) := by
  apply new1D_real
  intro h
  have := congrArg List.length h
  simp at this
  exact NeZero.ne n this

theorem new1D_arr_zero (x : E 0) :
    new1D (arr x) = .error (.valueError "The array must not be empty.") := by
  simp [new1D]

theorem new1D_ok {x : E n} {l : List ℝ} (h : new1D (arr x) = .ok l) : n ≠ 0 ∧ l = arr x := by
  rcases Nat.eq_zero_or_pos n with h0 | h0
  · subst h0; simp [new1D_arr_zero] at h
  · have : NeZero n := ⟨by omega⟩
    simp at h
    exact ⟨by omega, h.symm⟩

/-! ### Padding to three dimensions -/

theorem setDimension_arr [NeZero n] (x : E n) {m : ℕ} (h : n ≤ m) :
    setDimension (m : Int) (arr x) =
      .ok (arr (padTo m x)) := by
  have hlt : ¬ ((m : Int) < ((arr x).length : Int)) := by simp; omega
  rw [setDimension, if_neg hlt]
  have hval : arr x ++ List.replicate ((m : Int) - ((arr x).length : Int)).toNat zero =
      arr (padTo m x) := by
    apply List.ext_getElem
    · simp; omega
    · intro i h1 h2
      simp only [List.getElem_append, length_arr]
      split
      · rename_i hi; simp [arr, padTo, hi]
      · rename_i hi; simp [arr, padTo, hi]
  have : NeZero m := ⟨by have := NeZero.ne n; omega⟩
  show new1D _ = _
  rw [hval, new1D_arr]

theorem setDimension3_arr [NeZero n] (x : E n) (h : n ≤ 3) :
    setDimension 3 (arr x) = .ok (arr (pad3 x)) := setDimension_arr x h

theorem setDimension3_arr_gt (x : E n) (h : 3 < n) :
    setDimension 3 (arr x) = .error (.valueError
      "The desired dimension cannot be less than the current dimension.") := by
  have : (3 : Int) < ((arr x).length : Int) := by simp; omega
  simp [setDimension, h]

@[simp] theorem pad3_self (x : E 3) : pad3 x = x := by
  ext i; simp [padTo]

theorem pad3_add (x y : E n) : pad3 (x + y) = pad3 x + pad3 y := by
  ext i; simp only [padTo, PiLp.add_apply]; split <;> simp
theorem pad3_sub (x y : E n) : pad3 (x - y) = pad3 x - pad3 y := by
  ext i; simp only [padTo, PiLp.sub_apply]; split <;> simp
theorem pad3_smul (t : ℝ) (x : E n) : pad3 (t • x) = t • pad3 x := by
  ext i; simp only [padTo, PiLp.smul_apply]; split <;> simp

theorem inner_pad3 (h : n ≤ 3) (x y : E n) : inner ℝ (pad3 x) (pad3 y) = (inner ℝ x y : ℝ) := by
  simp only [PiLp.inner_apply, padTo]
  rcases n with _ | _ | _ | _ | n
  · simp
  · simp
  · simp [Fin.sum_univ_three, Fin.sum_univ_two]
  · simp [Fin.sum_univ_three]
  · omega

theorem norm_pad3 (h : n ≤ 3) (x : E n) : ‖pad3 x‖ = ‖x‖ := by
  rw [norm_eq_sqrt_real_inner, norm_eq_sqrt_real_inner, inner_pad3 h]

theorem pad3_injective (h : n ≤ 3) : Function.Injective (pad3 (n := n)) := by
  intro x y hxy
  have : ‖x - y‖ = 0 := by rw [← norm_pad3 h, pad3_sub, hxy]; simp
  exact sub_eq_zero.mp (norm_eq_zero.mp this)

/-! ### The cross product -/

theorem arr3 (x : E 3) : arr x = [x 0, x 1, x 2] := by
  simp [arr, List.ofFn_succ]
theorem arr2 (x : E 2) : arr x = [x 0, x 1] := by
  simp [arr, List.ofFn_succ]
theorem arr1 (x : E 1) : arr x = [x 0] := by
  simp [arr]

@[simp] theorem cross3_arr (x y : E 3) : cross3 (arr x) (arr y) = .ok (arr (crossE x y)) := by
  simp [arr3, cross3, crossE, vec3]

theorem inner3 (x y : E 3) : (inner ℝ x y : ℝ) = x 0 * y 0 + x 1 * y 1 + x 2 * y 2 := by
  simp [PiLp.inner_apply, Fin.sum_univ_three]; ring
theorem inner2 (x y : E 2) : (inner ℝ x y : ℝ) = x 0 * y 0 + x 1 * y 1 := by
  simp [PiLp.inner_apply, Fin.sum_univ_two]; ring

end SkSpatial
