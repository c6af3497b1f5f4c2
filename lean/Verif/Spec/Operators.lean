import Verif.Model.Operators
import Verif.Spec.Field

/-!
# What operators mean
-/

set_option autoImplicit false

namespace Postpic.Spec

open Postpic Postpic.Fields

/-- Python's operators for single values. Comparisons with exchanged operands are mirrored, `divmod` gives the results
of `//` and `%`. -/
structure Scalar (V : Type) where
  lt : V → V → V
  le : V → V → V
  eq : V → V → V
  ne : V → V → V
  gt : V → V → V
  ge : V → V → V
  add : V → V → V
  sub : V → V → V
  mul : V → V → V
  truediv : V → V → V
  floordiv : V → V → V
  mod : V → V → V
  pow : V → V → V
  lshift : V → V → V
  rshift : V → V → V
  and : V → V → V
  xor : V → V → V
  or : V → V → V
  neg : V → V
  pos : V → V
  abs : V → V
  invert : V → V
  gt_lt : ∀ a b, gt a b = lt b a
  ge_le : ∀ a b, ge a b = le b a
  eq_comm : ∀ a b, eq a b = eq b a
  ne_comm : ∀ a b, ne a b = ne b a

/-- `a op b` for values. -/
def Scalar.num {V : Type} (M : Scalar V) : NumOp → V → V → V
  | .add, a, b => M.add a b
  | .sub, a, b => M.sub a b
  | .mul, a, b => M.mul a b
  | .truediv, a, b => M.truediv a b
  | .floordiv, a, b => M.floordiv a b
  | .mod, a, b => M.mod a b
  | .pow, a, b => M.pow a b
  | .lshift, a, b => M.lshift a b
  | .rshift, a, b => M.rshift a b
  | .and, a, b => M.and a b
  | .xor, a, b => M.xor a b
  | .or, a, b => M.or a b

/-- Comparisons of values. -/
def Scalar.cmp {V : Type} (M : Scalar V) : CmpOp → V → V → V
  | .lt, a, b => M.lt a b
  | .le, a, b => M.le a b
  | .eq, a, b => M.eq a b
  | .ne, a, b => M.ne a b
  | .gt, a, b => M.gt a b
  | .ge, a, b => M.ge a b

/-- Unary operators for values. -/
def Scalar.un {V : Type} (M : Scalar V) : UnOp → V → V
  | .neg, a => M.neg a
  | .pos, a => M.pos a
  | .abs, a => M.abs a
  | .invert, a => M.invert a

/-- numpy's functions do with values what their documentation says. -/
structure Documented {V : Type} (N : Ufuncs V) (M : Scalar V) : Prop where
  less : N.less = M.lt
  less_equal : N.less_equal = M.le
  equal : N.equal = M.eq
  not_equal : N.not_equal = M.ne
  greater : N.greater = M.gt
  greater_equal : N.greater_equal = M.ge
  add : N.add = M.add
  subtract : N.subtract = M.sub
  multiply : N.multiply = M.mul
  true_divide : N.true_divide = M.truediv
  floor_divide : N.floor_divide = M.floordiv
  remainder : N.remainder = M.mod
  divmod : ∀ a b, N.divmod a b = (M.floordiv a b, M.mod a b)
  power : N.power = M.pow
  left_shift : N.left_shift = M.lshift
  right_shift : N.right_shift = M.rshift
  bitwise_and : N.bitwise_and = M.and
  bitwise_xor : N.bitwise_xor = M.xor
  bitwise_or : N.bitwise_or = M.or
  negative : N.negative = M.neg
  positive : N.positive = M.pos
  absolute : N.absolute = M.abs
  invert : N.invert = M.invert

variable {K V : Type}

/-- The shape of an operand, none if it is neither a field nor an array nor a number. -/
inductive HasShape : Operand K V → List ℕ → Prop where
  | field (f : Field K V) : HasShape (.field f) f.matrix.shape
  | array (a : Arr V) : HasShape (.array a) a.shape
  | number (c : V) : HasShape (.number c) []

/-- The value of an operand which belongs to the index `idx` of the result. -/
inductive EntryAt : Operand K V → List ℕ → V → Prop where
  | field (f : Field K V) (idx j : List ℕ) : OperandIndex f.matrix.shape idx j → EntryAt (.field f) idx (f.matrix.at' j)
  | array (a : Arr V) (idx j : List ℕ) : OperandIndex a.shape idx j → EntryAt (.array a) idx (a.at' j)
  | number (c : V) (idx : List ℕ) : EntryAt (.number c) idx c

/-- The first operand which is a field. -/
inductive FirstField : Operand K V → Operand K V → Field K V → Prop where
  | left (f : Field K V) (y : Operand K V) : FirstField (.field f) y f
  | right (x : Operand K V) (f : Field K V) : (∀ g, x ≠ .field g) → FirstField x (.field f) f

/-- The field `r` is `x op y`, entry by entry: the shape follows numpy's rules, each value is computed from the values
of the operands which belong to it, in this order; name and unit are those of the first field. -/
structure EntryByEntry (op : V → V → V) (x y : Operand K V) (r : Field K V) : Prop where
  shape : ∃ s t, HasShape x s ∧ HasShape y t ∧ Broadcast s t r.matrix.shape
  values : ∀ idx, InBounds r.matrix.shape idx → ∃ a b, EntryAt x idx a ∧ EntryAt y idx b ∧ r.matrix.at' idx = op a b
  labels : ∃ f, FirstField x y f ∧ r.name = f.name ∧ r.unit = f.unit

end Postpic.Spec
