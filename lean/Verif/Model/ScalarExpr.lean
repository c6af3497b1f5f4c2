import Mathlib.Data.Rat.Defs
import Mathlib.Algebra.Order.Ring.Rat
import Mathlib.Algebra.Field.Rat

/-!
# Expressions of particle scalars

The fragment of the expression language of `numexpr` (python syntax) which the predefined particle
scalars use (`postpic/particles/scalarproperties.py:159-222`), and a parser for it, so that the table
of scalars can be transcribed verbatim. `numexpr` itself is not part of the repository.
-/

set_option autoImplicit false

namespace Postpic.Scalars

/-- Expressions. -/
inductive Expr where
  | num (q : ℚ)
  | var (name : String)
  | add (a b : Expr)
  | sub (a b : Expr)
  | mul (a b : Expr)
  | div (a b : Expr)
  | neg (a : Expr)
  | pow (a : Expr) (n : ℕ)
  | sqrt (a : Expr)
  | arctan2 (a b : Expr)
  deriving DecidableEq

/-- `input_names`: the variables of the expression. `scalarproperties.py:78-83`. `numexpr` returns
them sorted and without repetition; neither matters, see `evalSp`. -/
def Expr.vars : Expr → List String
  | .num _ => []
  | .var s => [s]
  | .add a b | .sub a b | .mul a b | .div a b | .arctan2 a b => a.vars ++ b.vars
  | .neg a | .pow a _ | .sqrt a => a.vars

/-- Tokens. -/
inductive Tok where
  | num (q : ℚ)
  | name (s : String)
  | op (c : Char)
  | pow
  deriving DecidableEq

/-- Letters, digits and underscore. -/
def isWord (c : Char) : Bool := c.isAlpha || c.isDigit || c == '_'

/-- Value of a list of decimal digits. -/
def natOf (l : List Char) : ℕ := l.foldl (fun n c => 10 * n + (c.toNat - '0'.toNat)) 0

/-- Numbers: digits, optionally followed by `e` and digits. -/
def numOf (l : List Char) : Option ℚ :=
  match l.span (·.isDigit) with
  | (d, []) => some (natOf d)
  | (d, 'e' :: e) => if !e.isEmpty && e.all (·.isDigit) then some (natOf d * 10 ^ natOf e) else none
  | _ => none

/-- The tokenizer. -/
def tokens : ℕ → List Char → Option (List Tok)
  | _, [] => some []
  | 0, _ => none
  | n + 1, ' ' :: l => tokens n l
  | n + 1, '*' :: '*' :: l => (tokens n l).map (Tok.pow :: ·)
  | n + 1, c :: l =>
    if c.isDigit then
      let w := (c :: l).takeWhile isWord
      match numOf w, tokens n ((c :: l).dropWhile isWord) with
      | some q, some ts => some (.num q :: ts)
      | _, _ => none
    else if isWord c then
      (tokens n ((c :: l).dropWhile isWord)).map
        (Tok.name (String.ofList ((c :: l).takeWhile isWord)) :: ·)
    else if c ∈ ['+', '-', '*', '/', '(', ')', ','] then (tokens n l).map (Tok.op c :: ·)
    else none

mutual

/-- Numbers, variables, function calls, parentheses. -/
def parseAtom : ℕ → List Tok → Option (Expr × List Tok)
  | 0, _ => none
  | _ + 1, .num q :: ts => some (.num q, ts)
  | n + 1, .name s :: .op '(' :: ts =>
    match parseSum n ts with
    | some (a, .op ')' :: ts) => if s = "sqrt" then some (.sqrt a, ts) else none
    | some (a, .op ',' :: ts) => match parseSum n ts with
      | some (b, .op ')' :: ts) => if s = "arctan2" then some (.arctan2 a b, ts) else none
      | _ => none
    | _ => none
  | _ + 1, .name s :: ts => some (.var s, ts)
  | n + 1, .op '(' :: ts => match parseSum n ts with
    | some (a, .op ')' :: ts) => some (a, ts)
    | _ => none
  | _, _ => none

/-- Powers with a literal exponent, and signs. -/
def parseFactor : ℕ → List Tok → Option (Expr × List Tok)
  | 0, _ => none
  | n + 1, .op '-' :: ts => (parseFactor n ts).map fun r => (.neg r.1, r.2)
  | n + 1, ts => match parseAtom n ts with
    | some (a, .pow :: .num q :: ts) => if q.den = 1 ∧ 0 ≤ q then some (.pow a q.num.toNat, ts) else none
    | r => r

/-- Products, left associative. -/
def parseProd : ℕ → List Tok → Option (Expr × List Tok)
  | 0, _ => none
  | n + 1, ts => match parseFactor n ts with
    | some (a, ts) => prodTail n a ts
    | none => none

/-- The rest of a product. -/
def prodTail : ℕ → Expr → List Tok → Option (Expr × List Tok)
  | 0, _, _ => none
  | n + 1, a, .op '*' :: ts => match parseFactor n ts with
    | some (b, ts) => prodTail n (.mul a b) ts
    | none => none
  | n + 1, a, .op '/' :: ts => match parseFactor n ts with
    | some (b, ts) => prodTail n (.div a b) ts
    | none => none
  | _ + 1, a, ts => some (a, ts)

/-- Sums, left associative. -/
def parseSum : ℕ → List Tok → Option (Expr × List Tok)
  | 0, _ => none
  | n + 1, ts => match parseProd n ts with
    | some (a, ts) => sumTail n a ts
    | none => none

/-- The rest of a sum. -/
def sumTail : ℕ → Expr → List Tok → Option (Expr × List Tok)
  | 0, _, _ => none
  | n + 1, a, .op '+' :: ts => match parseProd n ts with
    | some (b, ts) => sumTail n (.add a b) ts
    | none => none
  | n + 1, a, .op '-' :: ts => match parseProd n ts with
    | some (b, ts) => sumTail n (.sub a b) ts
    | none => none
  | _ + 1, a, ts => some (a, ts)

end

/-- `ne.NumExpr(self.expr)`, `scalarproperties.py:69-76`, for the fragment; `none` for everything
else. The fuel is four times the length plus ten: every recursive call consumes a token or goes
one level down in the grammar. -/
def parse (s : String) : Option Expr :=
  match tokens (s.toList.length + 1) s.toList with
  | none => none
  | some ts => match parseSum (6 * ts.length + 10) ts with
    | some (e, []) => some e
    | _ => none

end Postpic.Scalars
