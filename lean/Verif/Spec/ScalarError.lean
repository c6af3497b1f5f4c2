import Mathlib.Algebra.Order.Field.Basic
import Verif.Model.ScalarExpr
import Verif.Model.ScalarEval

/-!
# Specification: the error of particle scalars

Expressions without subtraction of positive numbers lose no digits: the relative error of the result is that of the number of roundings.
-/

set_option autoImplicit false

namespace Postpic.Spec

open Postpic.Scalars

/-- `y` is `x` after `k` roundings with relative error `u`: `y = x * t`, where `(1 - u)^k ≤ t ≤ (1 - u)^(-k)`. -/
def Within {K : Type} [Field K] [LinearOrder K] (u : K) (k : ℕ) (x y : K) : Prop :=
  ∃ t, (1 - u) ^ k ≤ t ∧ t * (1 - u) ^ k ≤ 1 ∧ y = x * t

/-- What is known about the sign of a number. -/
inductive Sign where
  | pos
  | nonneg
  | any
  deriving DecidableEq

/-- The numbers with this sign. -/
def Sign.Of : Sign → ℝ → Prop
  | .pos, x => 0 < x
  | .nonneg, x => 0 ≤ x
  | .any, _ => True

/-- The sign of a product or quotient. -/
def Sign.mul : Sign → Sign → Sign
  | .any, _ | _, .any => .any
  | .pos, .pos => .pos
  | _, _ => .nonneg

/-- The sign of a square. -/
def Sign.square : Sign → Sign
  | .pos => .pos
  | _ => .nonneg

/-- The sign of the value of an expression, and the number of roundings; `none` if there is a difference, a sum of numbers of unknown sign,
a quotient by a number which may be 0, or the root of a number which may be negative. -/
def roundings (env : String → Option (Sign × ℕ)) : Expr → Option (Sign × ℕ)
  | .num q => some (if 0 < q then .pos else if q = 0 then .nonneg else .any, 1)
  | .var s => env s
  | .add a b => match roundings env a, roundings env b with
    | some (s, k), some (s', k') =>
      if s = .any ∨ s' = .any then none else some (if s = .pos ∨ s' = .pos then .pos else .nonneg, max k k' + 1)
    | _, _ => none
  | .mul a b => match roundings env a, roundings env b with
    | some (s, k), some (s', k') => some (s.mul s', k + k' + 1)
    | _, _ => none
  | .div a b => match roundings env a, roundings env b with
    | some (s, k), some (.pos, k') => some (s, k + k' + 1)
    | _, _ => none
  | .neg a => match roundings env a with
    | some (_, k) => some (.any, k)
    | none => none
  | .pow a n => match roundings env a with
    | some (s, k) => some (if n = 0 then .pos else if n % 2 = 0 then s.square else s, n * (k + 1))
    | none => none
  | .sqrt a => match roundings env a with
    | some (.pos, k) => some (.pos, (k + 1) / 2 + 1)
    | some (.nonneg, k) => some (.nonneg, (k + 1) / 2 + 1)
    | _ => none
  | .arctan2 a b => match roundings env a, roundings env b with
    | some (_, k), some (_, k') => some (.any, k + k' + 1)
    | _, _ => none
  | .sub _ _ => none

/-- The same for variables; `base` gives the signs of stored properties and constants. -/
def roundingsOf (reg : String → Option Expr) (base : String → Sign) : ℕ → String → Option (Sign × ℕ)
  | 0, _ => none
  | fuel + 1, name =>
    if fullname name ∈ atomicProps then some (base (fullname name), 0)
    else match reg name with
      | some e => roundings (roundingsOf reg base fuel) e
      | none => some (base name, 0)

/-- `base` is right about the values which are used. -/
structure SignsOf (base : String → Sign) (src : Sources) : Prop where
  atomic : ∀ s v, s ∈ atomicProps → src.atomic s = some v → (base s).Of v
  constants : ∀ s v, fullname s ∉ atomicProps → src.constants s = some v → (base s).Of v
  np : ∀ s v, fullname s ∉ atomicProps → src.constants s = none → src.np s = some v → (base s).Of v

end Postpic.Spec
