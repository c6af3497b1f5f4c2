import Mathlib.Data.Nat.Notation

/-!
# Specification: axes describe the data
-/

set_option autoImplicit false

namespace Postpic.Spec

/-- There is exactly one axis, one transform state and one stored origin per dimension, and the
length of each axis is the length of the data along its dimension. -/
structure AxesDescribe (shape axisLengths : List ℕ) (states origins : ℕ) : Prop where
  lengths : axisLengths = shape
  states : states = shape.length
  origins : origins = shape.length

/-- The length along the dimension `k` counted from the last one; missing dimensions have length 1
(numpy's manual, "General broadcasting rules"). -/
def alignedLength (shape : List ℕ) (k : ℕ) : ℕ := shape.reverse.getD k 1

/-- Two shapes can be broadcast, with this result: along each dimension, counted from the last one,
the lengths agree or one of them is 1. -/
def Broadcast (s t r : List ℕ) : Prop :=
  r.length = max s.length t.length ∧
  ∀ k, (alignedLength r k = alignedLength s k ∧
          (alignedLength t k = alignedLength s k ∨ alignedLength t k = 1)) ∨
       (alignedLength r k = alignedLength t k ∧ alignedLength s k = 1)

/-- `j` is the index in an operand which belongs to the index `idx` of the result: the dimensions
are counted from the last one, dimensions of length 1 are stretched. -/
def OperandIndex (shape idx j : List ℕ) : Prop :=
  j.length = shape.length ∧
  ∀ (k n i : ℕ), shape.reverse[k]? = some n → idx.reverse[k]? = some i →
    j.reverse[k]? = some (if n = 1 then 0 else i)

end Postpic.Spec
