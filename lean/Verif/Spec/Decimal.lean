import Verif.Spec.Double

/-!
# Specification: doubles as decimal numbers
-/

set_option autoImplicit false

namespace Postpic.Spec

open Postpic.Histogram

/-- A digit. -/
def digitChar (d : ℕ) : Char := Char.ofNat (48 + d)

/-- The value of a digit. -/
def digitValue (c : Char) : ℕ := c.toNat - 48

/-- The last `k` digits of `n`. -/
def showDigits : ℕ → ℕ → List Char
  | 0, _ => []
  | k + 1, n => showDigits k (n / 10) ++ [digitChar (n % 10)]

/-- The number with the given digits. -/
def readDigits (l : List Char) : ℕ := l.foldl (fun n c => 10 * n + digitValue c) 0

/-- Digits and decimal exponent of `x` as printed with `n` digits after the point, for `x ≠ 0`. -/
def scientific (n : ℕ) (x : ℚ) : ℕ × ℤ :=
  let k := Int.log 10 |x|
  let m := (roundEven (|x| / (10 : ℚ) ^ (k - (n : ℤ)))).toNat
  if m = 10 ^ (n + 1) then (10 ^ n, k + 1) else (m, k)

/-- `'%.{n}e' % x` for `n > 0`, as `printf` of C: a digit, the point, `n` digits, `e`, the sign and at least two digits of the exponent. -/
def printSci (n : ℕ) (x : ℚ) : List Char :=
  let (m, k) := if x = 0 then (0, 0) else scientific n x
  (if x < 0 then ['-'] else []) ++ showDigits 1 (m / 10 ^ n) ++ '.' :: showDigits n m ++ 'e' :: (if k < 0 then '-' else '+') ::
    showDigits (max 2 (Nat.log 10 k.natAbs + 1)) k.natAbs

/-- An optional sign. -/
def readSign : List Char → Bool × List Char
  | '-' :: l => (true, l)
  | '+' :: l => (false, l)
  | l => (false, l)

/-- The exponent of a decimal number, which may be missing. -/
def readExponent : List Char → Option ℤ
  | [] => some 0
  | 'e' :: l =>
    let (s, l) := readSign l
    if !l.isEmpty && l.all Char.isDigit then some (if s then -(readDigits l : ℤ) else readDigits l) else none
  | _ => none

/-- The digits after the point, which may be missing, and the rest. -/
def readFraction : List Char → List Char × List Char
  | '.' :: l => l.span Char.isDigit
  | l => ([], l)

/-- The value of a decimal number: a sign, digits, a point and digits, an exponent. -/
def readDecimal (l : List Char) : Option ℚ :=
  let (s, l) := readSign l
  let (a, l) := l.span Char.isDigit
  let (b, l) := readFraction l
  if (a ++ b).isEmpty then none
  else (readExponent l).map fun e => (if s then -1 else 1) * (readDigits (a ++ b) : ℚ) * (10 : ℚ) ^ (e - (b.length : ℤ))

/-- `float(text)` of a decimal number: the double next to its value. -/
def readDouble (l : List Char) : Option ℚ :=
  match readDecimal l with
  | none => none
  | some v => match double v with
    | .fin y => some y
    | _ => none

end Postpic.Spec
