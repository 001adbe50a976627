import Verif.Model.Num
/-! # What a call may raise

Vocabulary of C99, C100 and C107: a call, as a value of `Res α`, returns or raises. -/

namespace SkSpatial
variable {α : Type}

/-- The call raises `ValueError`. -/
def RaisesValueError (r : Res α) : Prop := ∃ m, r = .error (.valueError m)

/-- The call raises `TypeError`. -/
def RaisesTypeError (r : Res α) : Prop := ∃ m, r = .error (.typeError m)

/-- The call returns or raises `ValueError`: it raises no other exception. -/
def OnlyValueError (r : Res α) : Prop := ∀ e, r = .error e → ∃ m, e = .valueError m

/-- The call returns or raises `ValueError` or `IndexError`. -/
def OnlyValueOrIndexError (r : Res α) : Prop := ∀ e, r = .error e → ∃ m, e = .valueError m ∨ e = .indexError m

/-- The call raises `AttributeError`. -/
def RaisesAttributeError (r : Res α) : Prop := ∃ m, r = .error (.attributeError m)

/-- The call returns or raises `ValueError` or `AttributeError`. -/
def OnlyValueOrAttributeError (r : Res α) : Prop := ∀ e, r = .error e → ∃ m, e = .valueError m ∨ e = .attributeError m

/-- The call raises `OverflowError`. -/
def RaisesOverflowError (r : Res α) : Prop := ∃ m, r = .error (.overflowError m)

variable {K : Type} [PyNum K]

/-- No number is infinite or NaN: exact arithmetic, rounding without overflow, integers. -/
class NoOverflow (K : Type) [PyNum K] : Prop where
  finite : ∀ x : K, PyNum.isFinite x = true

/-- The number is finite, but its square is not. -/
def SquareOverflows (x : K) : Prop := PyNum.isFinite x = true ∧ PyNum.isFinite (x *. x) = false

/-- The number is finite, but its third power is not. -/
def CubeOverflows (x : K) : Prop := PyNum.isFinite x = true ∧ PyNum.isFinite (x *. x *. x) = false

end SkSpatial
