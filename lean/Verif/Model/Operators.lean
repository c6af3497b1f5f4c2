import Verif.Model.FieldHeap
import Mathlib.Data.List.Dedup

/-!
# Operators and numpy functions applied to fields

The arguments of a ufunc are fields, plain arrays, numbers, or anything else (lists, strings, `None`). What a ufunc
does with single values is a parameter.
-/

set_option autoImplicit false

namespace Postpic.Fields

open Postpic Postpic.Axes

variable {K V : Type} [_root_.Field K] [LinearOrder K]

/-- An argument. `datahandling.py:748-749`. -/
inductive Operand (K V : Type) where
  | field (f : Field K V)
  | array (a : Arr V)
  | number (c : V)
  | other

/-- `isinstance(x, self._HANDLED_TYPES + (type(self),))`. `datahandling.py:748-749, 760-766`. -/
def Operand.handled : Operand K V → Bool
  | .other => false
  | _ => true

/-- `x.matrix if isinstance(x, type(self)) else x`; a number is an array without dimensions. The last case is not
reached. `datahandling.py:823`. -/
def Operand.data : Operand K V → Option (Arr V)
  | .field f => some f.matrix
  | .array a => some a
  | .number c => some ⟨[], fun _ => c⟩
  | .other => none

/-- What is collected per dimension; plain arrays have no axes. -/
abbrev OptMeta (K : Type) := Option (Axis K) × Option Bool × Option K

/-- The three lists of a field side by side. -/
def Field.optMetas (f : Field K V) : List (OptMeta K) := f.metas.map fun m => (some m.1, m.2.1, m.2.2)

/-- The loop over the reversed lists. `datahandling.py:698-734`. -/
def optMetaRev : List (OptMeta K) → List (OptMeta K) → Res (List (OptMeta K))
  | [], l => .ok l
  | l, [] => .ok l
  | a :: l, b :: m => do
    let x ← match a.1, b.1 with
      | none, _ => (.ok b : Res (OptMeta K))
      | _, none => .ok a
      | some a1, some b1 =>
        if a1.len = b1.len then
          (if b.2.2.isNone then .ok (some a1, a.2.1, a.2.2) else .ok (some a1, b.2.1, b.2.2))
        else if a1.len = 1 then .ok b
        else if b1.len = 1 then .ok a
        else .error .valueError
    let r ← optMetaRev l m
    return x :: r

/-- The three lists for the result of a binary ufunc. -/
structure Lists (K : Type) where
  axes : List (Option (Axis K))
  ats : List (Option Bool)
  tao : List (Option K)

/-- `self._get_axes_ats_tao_binary_ufunc_broadcasting(other)`. For the last case see `Operand.handled`.
`datahandling.py:658-737`. -/
def Field.binaryLists (self : Field K V) : Operand K V → Res (Lists K)
  | .number _ => .ok ⟨self.axes.map some, self.ats, self.tao⟩
  | .array a => do
    let m ← optMetaRev self.optMetas.reverse (List.replicate a.shape.length (none, none, none)).reverse
    return ⟨m.reverse.map (·.1), m.reverse.map (·.2.1), m.reverse.map (·.2.2)⟩
  | .field h => do
    let m ← optMetaRev self.optMetas.reverse h.optMetas.reverse
    return ⟨m.reverse.map (·.1), m.reverse.map (·.2.1), m.reverse.map (·.2.2)⟩
  | .other => .error .attributeError

/-- The loop over the axes in the constructor, if some of them are `None`: `len(None)` is a TypeError.
`datahandling.py:577-581, 914-926`. -/
def checkOptAxes (shape : List ℕ) : ℕ → List (Option (Axis K)) → Res (List (Axis K))
  | _, [] => .ok []
  | i, none :: _ => .error (if 2 < i then .keyError else .typeError)
  | i, some ax :: axs => do
    checkAxisObj shape i ax
    let r ← checkOptAxes shape (i + 1) axs
    return ax :: r

/-- The constructor for the result of a ufunc. `datahandling.py:561-612, 839-852`. -/
def mkResult (self : Field K V) (m : Arr V) (l : Lists K) : Res (Field K V) :=
  if l.axes.length < m.shape.length then .error .valueError else do
    let axes ← checkOptAxes m.shape 0 l.axes
    return ⟨self.name, self.unit, m, axes, l.ats, l.tao⟩

/-- A binary ufunc for plain arrays and numbers. -/
def ufuncData (g : V → V → V) (a b : Operand K V) : Res (Arr V) :=
  match a.data, b.data with
  | some x, some y => Arr.binary g x y
  | _, _ => .error .typeError

/-- `ufunc(a, b)`, where at least one argument is a field; `g` is what the ufunc does with values. If the method
returns `NotImplemented`, numpy raises a TypeError. The method of the first argument which is a field is called.
Without any field this code is not reached. `datahandling.py:754-853`. -/
def ufuncCall (g : V → V → V) (a b : Operand K V) : Res (Field K V) :=
  if !a.handled || !b.handled then .error .typeError
  else match a, b with
    | .field f, x => do
      let l ← f.binaryLists x
      let m ← ufuncData g a b
      mkResult f m l
    | x, .field f => do
      let l ← f.binaryLists x
      let m ← ufuncData g a b
      mkResult f m l
    | _, _ => .error .undefinedBehaviour

/-- `ufunc(a)`. `datahandling.py:774-778, 848-852`. -/
def ufuncCall1 (g : V → V) (f : Field K V) : Res (Field K V) :=
  mkResult f ⟨f.shape, fun idx => g (f.matrix.at' idx)⟩ ⟨f.axes.map some, f.ats, f.tao⟩

/-- `ufunc(a, b)` with two results, like `np.divmod`. `datahandling.py:841-844`. -/
def ufuncCallPair (g : V → V → V × V) (a b : Operand K V) : Res (Field K V × Field K V) := do
  let r ← ufuncCall (fun x y => (g x y).1) a b
  let s ← ufuncCall (fun x y => (g x y).2) a b
  return (r, s)

/-- `ufunc(self, b, out=(self,))` for operators like `+=`: the data is computed and written to the array of `self`,
which must already have the shape of the result. The value is `self` afterwards; an error leaves it as it is.
`datahandling.py:760-772, 822-837`, `_compat/mixins.py:50-56`. -/
def ufuncInplace (g : V → V → V) (self : Field K V) (b : Operand K V) : Res (Field K V) :=
  if !b.handled then .error .typeError
  else do
    let m ← ufuncData g (.field self) b
    if m.shape = self.shape then return { self with matrix := m } else throw .valueError

/-! ### The operators -/

/-- The functions of numpy the operators are made of, for single values. `_compat/mixins.py:155-198`. -/
structure Ufuncs (V : Type) where
  less : V → V → V
  less_equal : V → V → V
  equal : V → V → V
  not_equal : V → V → V
  greater : V → V → V
  greater_equal : V → V → V
  add : V → V → V
  subtract : V → V → V
  multiply : V → V → V
  true_divide : V → V → V
  floor_divide : V → V → V
  remainder : V → V → V
  divmod : V → V → V × V
  power : V → V → V
  left_shift : V → V → V
  right_shift : V → V → V
  bitwise_and : V → V → V
  bitwise_xor : V → V → V
  bitwise_or : V → V → V
  negative : V → V
  positive : V → V
  absolute : V → V
  invert : V → V

/-- Comparisons of python. -/
inductive CmpOp where
  | lt | le | eq | ne | gt | ge

/-- Binary operators of python with a result of their own. -/
inductive NumOp where
  | add | sub | mul | truediv | floordiv | mod | pow | lshift | rshift | and | xor | or

/-- Unary operators of python. -/
inductive UnOp where
  | neg | pos | abs | invert

/-- `__lt__` and so on. `_compat/mixins.py:155-161`. -/
def CmpOp.ufunc (N : Ufuncs V) : CmpOp → V → V → V
  | .lt => N.less
  | .le => N.less_equal
  | .eq => N.equal
  | .ne => N.not_equal
  | .gt => N.greater
  | .ge => N.greater_equal

/-- `__add__` and so on. `_compat/mixins.py:163-189`. -/
def NumOp.ufunc (N : Ufuncs V) : NumOp → V → V → V
  | .add => N.add
  | .sub => N.subtract
  | .mul => N.multiply
  | .truediv => N.true_divide
  | .floordiv => N.floor_divide
  | .mod => N.remainder
  | .pow => N.power
  | .lshift => N.left_shift
  | .rshift => N.right_shift
  | .and => N.bitwise_and
  | .xor => N.bitwise_xor
  | .or => N.bitwise_or

/-- `__neg__` and so on. `_compat/mixins.py:191-198`. -/
def UnOp.ufunc (N : Ufuncs V) : UnOp → V → V
  | .neg => N.negative
  | .pos => N.positive
  | .abs => N.absolute
  | .invert => N.invert

/-- The comparison python tries with the operands exchanged. -/
def CmpOp.mirror : CmpOp → CmpOp
  | .lt => .gt
  | .le => .ge
  | .eq => .eq
  | .ne => .ne
  | .gt => .lt
  | .ge => .le

/-- `x op y`: if `x` is a field, its method `__op__` is called; numpy arrays call the ufunc themselves; for numbers
and other objects the method `__rop__` of the field is called. `_compat/mixins.py:30-47`. -/
def numOp (N : Ufuncs V) (op : NumOp) (x y : Operand K V) : Res (Field K V) :=
  match x, y with
  | .field f, y => ufuncCall (op.ufunc N) (.field f) y
  | .array a, .field f => ufuncCall (op.ufunc N) (.array a) (.field f)
  | x, .field f => ufuncCall (op.ufunc N) x (.field f)
  | _, _ => .error .undefinedBehaviour

/-- Comparisons: for numbers and other objects on the left the mirrored method of the field is called.
`_compat/mixins.py:30-37, 155-161`. -/
def cmpOp (N : Ufuncs V) (op : CmpOp) (x y : Operand K V) : Res (Field K V) :=
  match x, y with
  | .field f, y => ufuncCall (op.ufunc N) (.field f) y
  | .array a, .field f => ufuncCall (op.ufunc N) (.array a) (.field f)
  | x, .field f => ufuncCall (op.mirror.ufunc N) (.field f) x
  | _, _ => .error .undefinedBehaviour

/-- `divmod(x, y)`. `_compat/mixins.py:176-178`. -/
def divmodOp (N : Ufuncs V) (x y : Operand K V) : Res (Field K V × Field K V) :=
  match x, y with
  | .field f, y => ufuncCallPair N.divmod (.field f) y
  | x, .field f => ufuncCallPair N.divmod x (.field f)
  | _, _ => .error .undefinedBehaviour

/-- `-f` and so on. `_compat/mixins.py:66-71`. -/
def unOp (N : Ufuncs V) (op : UnOp) (f : Field K V) : Res (Field K V) := ufuncCall1 (op.ufunc N) f

/-- `f op= y`. `_compat/mixins.py:50-56`. -/
def inplaceOp (N : Ufuncs V) (op : NumOp) (f : Field K V) (y : Operand K V) : Res (Field K V) :=
  ufuncInplace (op.ufunc N) f y

/-! ### Methods of ufuncs -/

/-- The argument `axis` of `ufunc.reduce`: not given, `None`, or a number or several numbers. -/
inductive ReduceAxis where
  | absent
  | all
  | these (l : List ℤ)

/-- `range(len(axes)) if reduceaxis is None else reduceaxis`, where 0 is the default.
`datahandling.py:796-799`. -/
def ReduceAxis.list (n : ℕ) : ReduceAxis → List ℤ
  | .absent => [0]
  | .all => (List.range n).map Int.ofNat
  | .these l => l

/-- The same for numpy. -/
def ReduceAxis.numpy : ReduceAxis → Option (List ℤ)
  | .absent => some [0]
  | .all => none
  | .these l => some l

/-- `ufunc.reduce(f, axis=..., keepdims=...)`; `red` is the ufunc for a list of values.
`datahandling.py:792-803, 848-852`. -/
def ufuncReduce (red : List V → V) (f : Field K V) (axis : ReduceAxis) (keepdims : Bool) :
    Res (Field K V) := do
  let l := sortDesc (axis.list f.axes.length).dedup
  let axes ← delAll f.axes l
  let ats ← delAll f.ats l
  let tao ← delAll f.tao l
  let sel ← normAxes f.shape.length axis.numpy
  mkResult f (if keepdims then f.matrix.reduceKeep red sel else f.matrix.reduce red sel)
    ⟨axes.map some, ats, tao⟩

/-- The lists for one argument of `ufunc.outer`: for an array with dimensions `j.shape` is looked up for an
integer `j`, an AttributeError. `datahandling.py:808-819`. -/
def outerLists : Operand K V → Res (Lists K)
  | .field f => .ok ⟨f.axes.map some, f.ats, f.tao⟩
  | .array a => if a.shape = [] then .ok ⟨[], [], []⟩ else .error .attributeError
  | .number _ => .ok ⟨[], [], []⟩
  | .other => .error .typeError

/-- What numpy does for `ufunc.outer`. -/
def Arr.outer (g : V → V → V) (a b : Arr V) : Arr V :=
  ⟨a.shape ++ b.shape, fun idx => g (a.at' (idx.take a.shape.length)) (b.at' (idx.drop a.shape.length))⟩

/-- The first field among the arguments. -/
def firstField : Operand K V → Operand K V → Option (Field K V)
  | .field f, _ => some f
  | _, .field f => some f
  | _, _ => none

/-- `ufunc.outer(a, b)`, where at least one argument is a field. `datahandling.py:804-819, 848-852`. -/
def ufuncOuter (g : V → V → V) (a b : Operand K V) : Res (Field K V) :=
  if !a.handled || !b.handled then .error .typeError
  else do
    let l ← outerLists a
    let m ← outerLists b
    match firstField a b, a.data, b.data with
    | some f, some x, some y =>
      mkResult f (Arr.outer g x y) ⟨l.axes ++ m.axes, l.ats ++ m.ats, l.tao ++ m.tao⟩
    | _, _, _ => .error .undefinedBehaviour

/-- What a function of numpy returns which does not know fields. -/
inductive Wrapped (K V : Type) where
  | field (f : Field K V)
  | array (a : Arr V)

/-- `f.__array_wrap__(array)` without context: functions of numpy like `np.clip`, `np.sort`, `np.take` compute with the
array of the field, and give their result to this method. `datahandling.py:859-886`. -/
def arrayWrap (self : Field K V) (a : Arr V) : Res (Wrapped K V) :=
  if a.shape.length = self.axes.length then do
    let r ← mkResult self a ⟨self.axes.map some, self.ats, self.tao⟩
    return .field r
  else .ok (.array a)

end Postpic.Fields
