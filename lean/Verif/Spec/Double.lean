import Mathlib.Data.Int.Log
import Mathlib.Data.Rat.Floor
import Verif.Spec.HistogramFloat

/-!
# Specification: the doubles of IEEE 754
-/

set_option autoImplicit false

namespace Postpic.Spec

open Postpic.Histogram

/-- The nearest integer; of two nearest ones the even one. -/
def roundEven (x : ℚ) : ℤ :=
  if Int.fract x < 1 / 2 then ⌊x⌋
  else if 1 / 2 < Int.fract x then ⌊x⌋ + 1
  else if ⌊x⌋ % 2 = 0 then ⌊x⌋ else ⌊x⌋ + 1

/-- The exponent of the last digit of the doubles near `x`: 53 digits, but none below `2^(-1074)`. -/
def lastDigit (x : ℚ) : ℤ := max (Int.log 2 |x| - 52) (-1074)

/-- The number with the digits of a double next to `x`, without a limit for large numbers. -/
def nearDouble (x : ℚ) : ℚ := roundEven (x / 2 ^ lastDigit x) * 2 ^ lastDigit x

/-- Rounding to the nearest double, ties to even (`binary64` of IEEE 754, the default of numpy and C). Numbers which would be `2^1024` or more
are infinite. -/
def double (x : ℚ) : Dbl ℚ := if 2 ^ 1024 ≤ |nearDouble x| then .inf (decide (x < 0)) else .fin (nearDouble x)

/-- `np.spacing`: the distance to the next double away from zero, with the sign of `x` (numpy's `npy_spacing`: NaN for infinite numbers,
infinite for the largest doubles). -/
def spacingDouble : Dbl ℚ → Dbl ℚ
  | .fin x =>
    let s : ℚ := if x = 0 then 2 ^ (-1074 : ℤ) else 2 ^ lastDigit x
    if 2 ^ 1024 ≤ |x| + s then .inf (decide (x < 0)) else .fin (if x < 0 then -s else s)
  | _ => .nan

end Postpic.Spec
