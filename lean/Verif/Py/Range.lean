import Mathlib.Data.Int.Notation
import Mathlib.Data.Nat.Notation
import Verif.Py.Err

/-!
# Python slices with steps

`slice.indices(n)` (CPython, `PySlice_Unpack` and `PySlice_AdjustIndices`) and `range`.
-/

set_option autoImplicit false

namespace Postpic

/-- One limit of a slice: negative numbers count from the end, everything is clamped to
`lower..upper`. -/
def adjustIndex (n : ℕ) (lower upper : ℤ) (v : ℤ) : ℤ :=
  if v < 0 then
    if v + n < lower then lower else v + n
  else if v > upper then upper else v

/-- `slice(start, stop, step).indices(n)`. -/
def sliceIndices (n : ℕ) (start stop step : Option ℤ) : Res (ℤ × ℤ × ℤ) :=
  let step := step.getD 1
  if step = 0 then .error .valueError
  else
    let lower : ℤ := if step < 0 then -1 else 0
    let upper : ℤ := if step < 0 then n - 1 else n
    let i := match start with
      | none => if step < 0 then upper else lower
      | some v => adjustIndex n lower upper v
    let j := match stop with
      | none => if step < 0 then lower else upper
      | some v => adjustIndex n lower upper v
    .ok (i, j, step)

/-- `len(range(a, b, step))` for `step ≠ 0`. -/
def rangeLen (a b step : ℤ) : ℕ :=
  if 0 < step then ((b - a + step - 1) / step).toNat else ((a - b - step - 1) / (-step)).toNat

/-- `range(a, b, step)` for `step ≠ 0`. -/
def pyRange (a b step : ℤ) : List ℤ :=
  (List.range (rangeLen a b step)).map fun (k : ℕ) => a + k * step

example : pyRange 1 8 3 = [1, 4, 7] := by decide
example : pyRange 5 (-1) (-2) = [5, 3, 1] := by decide
example : pyRange 3 3 1 = [] := by decide
example : sliceIndices 5 none none (some (-1)) = .ok (4, -1, -1) := by decide

end Postpic
