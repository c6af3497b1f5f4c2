import Verif.Spec.Double
import Verif.Spec.VtkBytes

/-!
# Specification: the binary formats of IEEE 754
-/

set_option autoImplicit false

namespace Postpic.Spec

open Postpic.Io Postpic.Histogram

/-- A binary format: the number of digits, the number of bits of the exponent, and the exponent of the last digit of the smallest numbers. -/
structure BinaryFormat where
  digits : ℕ
  bits : ℕ
  least : ℤ

/-- `binary64`. -/
def binary64 : BinaryFormat := ⟨53, 11, -1074⟩

/-- `binary32`. -/
def binary32 : BinaryFormat := ⟨24, 8, -149⟩

/-- The types of VTK files. -/
def vtkFormat : VtkType → BinaryFormat
  | .double => binary64
  | .float => binary32

/-- The exponent of the last digit of the numbers near `x`. -/
def BinaryFormat.last (F : BinaryFormat) (x : ℚ) : ℤ := if x = 0 then F.least else max (Int.log 2 |x| - (F.digits - 1)) F.least

/-- The nearest number of the format, ties to even, without a limit for large numbers. -/
def BinaryFormat.near (F : BinaryFormat) (x : ℚ) : ℚ := roundEven (x / 2 ^ F.last x) * 2 ^ F.last x

/-- The first number which is too large. -/
def BinaryFormat.limit (F : BinaryFormat) : ℚ := 2 ^ ((2 ^ F.bits - 2 + (F.digits - 1) : ℤ) + F.least)

/-- Rounding to the format. -/
def BinaryFormat.round (F : BinaryFormat) : Dbl ℚ → Dbl ℚ
  | .fin x => if F.limit ≤ |F.near x| then .inf (decide (x < 0)) else .fin (F.near x)
  | v => v

/-- The number which a code of the format means: one bit for the sign, the biased exponent, the digits without the first one. -/
def BinaryFormat.decode (F : BinaryFormat) (n : ℕ) : Dbl ℚ :=
  let negative := n / 2 ^ (F.bits + (F.digits - 1)) % 2 = 1
  let exponent := n / 2 ^ (F.digits - 1) % 2 ^ F.bits
  let fraction := n % 2 ^ (F.digits - 1)
  if exponent = 2 ^ F.bits - 1 then (if fraction = 0 then .inf (decide negative) else .nan)
  else
    let magnitude : ℚ := if exponent = 0 then fraction * 2 ^ F.least else (2 ^ (F.digits - 1) + fraction) * 2 ^ ((exponent : ℤ) - 1 + F.least)
    .fin (if negative then -magnitude else magnitude)

/-- The number with the given bytes, the first one is the most significant. -/
def bigEndian (b : Bytes) : ℕ := b.foldl (fun n c => 256 * n + c.toNat) 0

/-- A value of a binary VTK file. -/
def ieeeValue (t : VtkType) (b : Bytes) : Option (Dbl ℚ) := if b.length = typeSize t then some ((vtkFormat t).decode (bigEndian b)) else none

end Postpic.Spec
