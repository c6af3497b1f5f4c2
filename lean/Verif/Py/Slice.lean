import Mathlib.Data.Nat.Notation
import Mathlib.Data.Int.Notation

/-!
# Python slices of sequences

`l[start:stop]` and `l[start:stop:-1]` (python language reference, 3.3.1 and `slice.indices`).
-/

set_option autoImplicit false

namespace Postpic

/-- The limits of a slice with positive step: negative numbers count from the end, everything is
clamped to `0..n`. -/
def clampFwd (n : ℕ) (i : ℤ) : ℕ := if i < 0 then (i + n).toNat else min i.toNat n

/-- `l[start:stop]` with `None` for missing limits. -/
def sliceFwd {α : Type} (l : List α) (start stop : Option ℤ) : List α :=
  let s := match start with
    | none => 0
    | some i => clampFwd l.length i
  let t := match stop with
    | none => l.length
    | some i => clampFwd l.length i
  (l.take t).drop s

/-- The limits of a slice with step -1, shifted by one: negative numbers count from the end,
everything is clamped to `-1..n-1`; the result is the clamped limit plus one. -/
def clampBwd (n : ℕ) (i : ℤ) : ℕ := if i < 0 then (i + n + 1).toNat else min (i.toNat + 1) n

/-- `l[start:stop:-1]`: the elements `start, start-1, ..., stop+1`. -/
def sliceBwd {α : Type} (l : List α) (start stop : Option ℤ) : List α :=
  let s := match start with
    | none => l.length
    | some i => clampBwd l.length i
  let t := match stop with
    | none => 0
    | some i => clampBwd l.length i
  ((l.take s).drop t).reverse

example : sliceFwd [0, 1, 2, 3, 4] (some 1) (some (-1)) = [1, 2, 3] := by decide
example : sliceFwd [0, 1, 2, 3, 4] (some (-2)) none = [3, 4] := by decide
example : sliceFwd [0, 1, 2, 3, 4] (some (-7)) (some 9) = [0, 1, 2, 3, 4] := by decide
example : sliceBwd [0, 1, 2, 3, 4] none none = [4, 3, 2, 1, 0] := by decide
example : sliceBwd [0, 1, 2, 3, 4] (some 3) (some 0) = [3, 2, 1] := by decide
example : sliceBwd [0, 1, 2, 3, 4] (some 9) (some (-4)) = [4, 3, 2] := by decide

end Postpic
