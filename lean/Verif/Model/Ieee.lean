import Verif.Spec.Ieee

/-!
# Binary numbers of numpy

`astype('>f8')`, `astype('>f4')` and `tobytes`, which write the values of VTK files.
-/

set_option autoImplicit false

namespace Postpic.Io

open Postpic.Histogram Postpic.Spec

/-- The code of a number: sign, exponent and digits side by side. A carry of the rounding goes to the exponent. The one NaN has the first bit of the
digits set; zero has no sign. The conversion of numpy, `vtk.py:121-125`, `226-239`. -/
def ieeeCode (F : BinaryFormat) : Dbl ℚ → ℕ
  | .nan => (2 ^ F.bits - 1) * 2 ^ (F.digits - 1) + 2 ^ (F.digits - 2)
  | .inf s => (if s then 2 ^ (F.bits + (F.digits - 1)) else 0) + (2 ^ F.bits - 1) * 2 ^ (F.digits - 1)
  | .fin x =>
    (if x < 0 then 2 ^ (F.bits + (F.digits - 1)) else 0) +
      if F.limit ≤ |F.near x| then (2 ^ F.bits - 1) * 2 ^ (F.digits - 1)
      else (F.last x - F.least).toNat * 2 ^ (F.digits - 1) + (roundEven (|x| / 2 ^ F.last x)).toNat

/-- The last `k` bytes of `n`, the most significant first. -/
def toBytes : ℕ → ℕ → Bytes
  | 0, _ => []
  | k + 1, n => toBytes k (n / 256) ++ [UInt8.ofNat (n % 256)]

/-- `v.astype(dtype).tobytes()` of one value. `vtk.py:121-125`, `226-239`. -/
def ieeeBytes (t : VtkType) (v : Dbl ℚ) : Bytes := toBytes (typeSize t) (ieeeCode (vtkFormat t) v)

end Postpic.Io
