import Verif.Props.Ieee4
/-! # C96: sides of 2D lines -/

namespace SkSpatial
open XReal StdRounding

local notation "rn" => rounded (leftToRight (roundNearest 53))

theorem sideVector_ie {m M : ℤ} {v w : E 2} (hv : RV m M v) (hw : RV m M w) (hm : m + m ≤ 1074) (hM : M + M ≤ 1022) :
    @Vec.sideVector XReal ieee (xarr v) (xarr w) = @Vec.sideVector ℝ rn (arr v) (arr w) := by
  have h : ∀ i j k l, @PyNum.sub XReal ieee (@PyNum.mul XReal ieee (fin (pad3 w i)) (fin (pad3 v j)))
        (@PyNum.mul XReal ieee (fin (pad3 w k)) (fin (pad3 v l))) =
      fin (@PyNum.sub ℝ rn (@PyNum.mul ℝ rn (pad3 w i) (pad3 v j)) (@PyNum.mul ℝ rn (pad3 w k) (pad3 v l))) := by
    intro i j k l
    obtain ⟨a1, a2⟩ := ieee_mul (pad3_rv hw i) (pad3_rv hv j) hm (by omega)
    obtain ⟨b1, b2⟩ := ieee_mul (pad3_rv hw k) (pad3_rv hv l) hm (by omega)
    rw [a1, b1]
    exact (ieee_sub a2 b2 hm hM).1
  simp only [Vec.sideVector, ieee_new1D, new1D_rd, ok_bind, length_xarr, length_arr, ne_eq, not_true, or_self, if_false,
    setDimension3_ie (by norm_num : 2 ≤ 3), setDimension3_rd (by norm_num : 2 ≤ 3), arr3, xarr3, cross3, h, intSign_ie]

/-- C96: `v.side_vector(w)` and `line.side_point(point)`. -/
theorem C96_side {p v x : E 2} (hp : ModerateV p) (hv : ModerateV v) (hx : ModerateV x) :
    @Vec.sideVector XReal ieee (xarr v) (xarr x) = @Vec.sideVector ℝ rn (arr v) (arr x) ∧
    @Line.sidePoint XReal ieee ⟨xarr p, xarr v⟩ (xarr x) = @Line.sidePoint ℝ rn ⟨arr p, arr v⟩ (arr x) := by
  obtain ⟨w, w1, w2, w3⟩ := fromPoints_ie hp hx
  refine ⟨sideVector_ie hv.rv hx.rv (by norm_num) (by norm_num), ?_⟩
  simp only [Line.sidePoint, w1, w2, ok_bind]
  exact sideVector_ie (hv.rv.mono le_rfl (by norm_num)) w3 (by norm_num) (by norm_num)

/-- `C96_side` applies to `(0.1, -7)` and the line through `(0, 3)` with direction `(1, 2)`. -/
example : ∃ p v x : E 2, ModerateV p ∧ ModerateV v ∧ ModerateV x ∧ v ≠ 0 := by
  refine ⟨vec2 0 ((3 : ℤ) : ℝ), vec2 ((1 : ℤ) : ℝ) ((2 : ℤ) : ℝ), vec2 (3602879701896397 / 36028797018963968) ((-7 : ℤ) : ℝ),
    moderate_vec2 moderate_zero (moderate_int (by norm_num)), moderate_vec2 (moderate_int (by norm_num)) (moderate_int (by norm_num)),
    moderate_vec2 moderate_tenth (moderate_int (by norm_num)), ?_⟩
  intro h
  have := congrArg (fun x : E 2 => x 0) h
  simp [vec2] at this

end SkSpatial
