import Mathlib.Logic.Function.Basic
import Verif.Model.Field

/-!
# Model of the sharing of lists and arrays between fields

In `Model/Field.lean` fields are values. Here they are objects which refer to lists and to arrays in a memory, so that two
fields can refer to the same list or to the same array. `postpic/datahandling.py:561-945, 1028-1060, 2308-2346`.

A program is a list of statements; every result is stored in a new variable, the variables are numbered.
`Axis` objects are never changed by postpic and are values here.
-/

set_option autoImplicit false

noncomputable section

namespace Postpic.Fields

open Postpic Postpic.Axes

/-- A field object: its strings, and the addresses of its lists. The array is a view of a buffer: `loc` gives the position in
the buffer for each index. -/
structure Obj where
  name : String
  unit : String
  shape : List ℕ
  loc : List ℕ → List ℕ
  buf : ℕ
  axes : ℕ
  ats : ℕ
  tao : ℕ
  infos : ℕ

/-- The memory and the variables. Addresses from `next` on are free. -/
structure Mem (K V : Type) where
  bufs : ℕ → List ℕ → V
  axes : ℕ → List (Axis K)
  ats : ℕ → List (Option Bool)
  tao : ℕ → List (Option K)
  infos : ℕ → List String
  next : ℕ
  objs : List Obj

variable {K V : Type} [_root_.Field K] [LinearOrder K]

/-- The field an object stands for. -/
def Mem.load (s : Mem K V) (o : Obj) : Field K V :=
  ⟨o.name, o.unit, ⟨o.shape, fun idx => s.bufs o.buf (o.loc idx)⟩, s.axes o.axes, s.ats o.ats, s.tao o.tao⟩

/-- The fields of all variables, with their list `infos`. -/
def Mem.contents (s : Mem K V) : List (Field K V × List String) := s.objs.map fun o => (s.load o, s.infos o.infos)

/-- A new object, with new lists and a new array. -/
def Mem.fresh (s : Mem K V) (f : Field K V) : Obj :=
  ⟨f.name, f.unit, f.matrix.shape, id, s.next, s.next, s.next, s.next, s.next⟩

/-- Stores the lists and the array of a field at a free address and the object `o` in a new variable. -/
def Mem.push (s : Mem K V) (f : Field K V) (infos : List String) (o : Obj) : Mem K V where
  bufs := Function.update s.bufs s.next f.matrix.at'
  axes := Function.update s.axes s.next f.axes
  ats := Function.update s.ats s.next f.ats
  tao := Function.update s.tao s.next f.tao
  infos := Function.update s.infos s.next infos
  next := s.next + 1
  objs := s.objs ++ [o]

/-- `ufunc.outer(f, h)` for two fields. `datahandling.py:803-811`. -/
def Field.outer (g : V → V → V) (f h : Field K V) : Res (Field K V) :=
  mkField ⟨f.shape ++ h.shape, fun idx => g (f.matrix.at' (idx.take f.shape.length)) (h.matrix.at' (idx.drop f.shape.length))⟩
    f.name f.unit (f.axes ++ h.axes) (f.ats ++ h.ats) (f.tao ++ h.tao)

/-- A ufunc with one argument, or `accumulate`; `u` is what numpy does with the array.
`datahandling.py:774-778, 788-791`. -/
def Field.unary (u : Arr V → Arr V) (f : Field K V) : Res (Field K V) :=
  mkField (u f.matrix) f.name f.unit f.axes f.ats f.tao

/-- The positions selected by `field[key]`. `datahandling.py:2308-2331`. -/
def Field.getPicks (spl : Splines K) (f : Field K V) (key : List (Key K)) : Res (List Pick) := do
  let keys ← (f.axes.zip key).mapM fun p => normKey p.1 p.2
  let picks ← (f.axes.zip keys).mapM fun p => pickAxis spl p.1 p.2
  return picks.map (·.2)

/-- All dimensions are removed: numpy returns a number, which is not a view. -/
def allOne : List Pick → Bool
  | [] => true
  | .one _ :: l => allOne l
  | .many _ :: _ => false

/-- Statements. The numbers `i` and `j` are variables. -/
inductive Stmt (K V : Type) where
  /-- `f.copy(deep=...)`; `copy.copy(f)` is the shallow one. -/
  | copy (i : ℕ) (deep : Bool)
  /-- `f op number` -/
  | number (i : ℕ) (g : V → V → V) (c : V)
  /-- `np.sin(f)`, `-f`, `np.add.accumulate(f)` and so on -/
  | unary (i : ℕ) (u : Arr V → Arr V)
  /-- `f op array` -/
  | array (i : ℕ) (g : V → V → V) (b : Arr V)
  /-- `f op f` -/
  | binary (i j : ℕ) (g : V → V → V)
  /-- `f.sum(axis, keepdims)` and so on -/
  | reduce (i : ℕ) (red : List V → V) (axis : Option (List ℤ)) (keepdims : Bool)
  /-- `np.multiply.outer(f, f)` and so on -/
  | outer (i j : ℕ) (g : V → V → V)
  /-- `f.replace_data(array)`, the array is not used for anything else -/
  | replaceData (i : ℕ) (m : Arr V)
  /-- `f.real` for real data -/
  | real (i : ℕ)
  /-- `f[key]` -/
  | getitem (i : ℕ) (key : List (Key K))
  /-- `f[idx] = v` -/
  | setitem (i : ℕ) (idx : List ℕ) (v : V)
  /-- `f op= number` -/
  | inplace (i : ℕ) (g : V → V → V) (c : V)
  /-- `f.setaxisobj(d, ax)` -/
  | setaxisobj (i d : ℕ) (ax : Axis K)
  /-- any change of the list `f.axes` in place -/
  | editAxes (i : ℕ) (e : List (Axis K) → List (Axis K))
  /-- any change of the list `f.axes_transform_state` in place -/
  | editStates (i : ℕ) (e : List (Option Bool) → List (Option Bool))
  /-- any change of the list `f.transformed_axes_origins` in place -/
  | editOrigins (i : ℕ) (e : List (Option K) → List (Option K))
  /-- any change of the list `f.infos` in place -/
  | editInfos (i : ℕ) (e : List String → List String)
  /-- `f.name = s` -/
  | setName (i : ℕ) (s : String)
  /-- `f.unit = s` -/
  | setUnit (i : ℕ) (s : String)
  /-- `f.matrix = array`, the array is not used for anything else -/
  | setMatrix (i : ℕ) (m : Arr V)

/-- The object of a variable. -/
def Mem.obj (s : Mem K V) (i : ℕ) : Res Obj :=
  match s.objs[i]? with
  | some o => .ok o
  | none => .error .nameError

/-- The index is in bounds, for `f[idx] = v` with integers. -/
def idxOk (shape idx : List ℕ) : Bool :=
  idx.length == shape.length && (List.zip idx shape).all fun p => decide (p.1 < p.2)

open Classical in
/-- One statement. Operators with an output argument work on the array of the field (`datahandling.py:816-829`); the
constructor makes a new list of axes and an empty list of infos, but keeps the lists of transform states and of
origins it is given (`datahandling.py:561-612`). `copy` copies all lists (`datahandling.py:636-655`). -/
def step (spl : Splines K) (s : Mem K V) : Stmt K V → Res (Mem K V)
  | .copy i deep => do
    let o ← s.obj i
    let f := s.load o
    let n := s.fresh f
    return s.push f (s.infos o.infos) (if deep then n else { n with buf := o.buf, loc := o.loc })
  | .number i g c => do
    let o ← s.obj i
    let r ← (s.load o).binaryNumber g c
    return s.push r [] { s.fresh r with ats := o.ats, tao := o.tao }
  | .unary i u => do
    let o ← s.obj i
    let r ← (s.load o).unary u
    return s.push r [] { s.fresh r with ats := o.ats, tao := o.tao }
  | .array i g b => do
    let o ← s.obj i
    let r ← (s.load o).binaryArray g b
    return s.push r [] (s.fresh r)
  | .binary i j g => do
    let o ← s.obj i
    let p ← s.obj j
    let r ← (s.load o).binary g (s.load p)
    return s.push r [] (s.fresh r)
  | .reduce i red axis kd => do
    let o ← s.obj i
    let r ← (s.load o).reduce spl red axis kd
    return s.push r [] (s.fresh r)
  | .outer i j g => do
    let o ← s.obj i
    let p ← s.obj j
    let r ← (s.load o).outer g (s.load p)
    return s.push r [] (s.fresh r)
  | .replaceData i m => do
    let o ← s.obj i
    let r ← (s.load o).replaceData m
    return s.push r (s.infos o.infos) (s.fresh r)
  | .real i => do
    let o ← s.obj i
    let f := s.load o
    return s.push f (s.infos o.infos) { s.fresh f with buf := o.buf, loc := o.loc }
  | .getitem i key => do
    let o ← s.obj i
    let r ← (s.load o).getitem spl key
    let p ← (s.load o).getPicks spl key
    return s.push r (s.infos o.infos)
      (if allOne p then s.fresh r else { s.fresh r with buf := o.buf, loc := fun idx => o.loc (pickIdx p idx) })
  | .setitem i idx v => do
    let o ← s.obj i
    if idxOk o.shape idx then
      return { s with bufs := Function.update s.bufs o.buf (Function.update (s.bufs o.buf) (o.loc idx) v) }
    else throw .indexError
  | .inplace i g c => do
    let o ← s.obj i
    return { s with bufs := Function.update s.bufs o.buf fun p =>
      if ∃ idx, InBounds o.shape idx ∧ o.loc idx = p then g (s.bufs o.buf p) c else s.bufs o.buf p }
  | .setaxisobj i d ax => do
    let o ← s.obj i
    checkAxisObj o.shape d ax
    let l ← pySet (s.axes o.axes) d ax
    return { s with axes := Function.update s.axes o.axes l }
  | .editAxes i e => do
    let o ← s.obj i
    return { s with axes := Function.update s.axes o.axes (e (s.axes o.axes)) }
  | .editStates i e => do
    let o ← s.obj i
    return { s with ats := Function.update s.ats o.ats (e (s.ats o.ats)) }
  | .editOrigins i e => do
    let o ← s.obj i
    return { s with tao := Function.update s.tao o.tao (e (s.tao o.tao)) }
  | .editInfos i e => do
    let o ← s.obj i
    return { s with infos := Function.update s.infos o.infos (e (s.infos o.infos)) }
  | .setName i n => do
    let o ← s.obj i
    return { s with objs := s.objs.set i { o with name := n } }
  | .setUnit i n => do
    let o ← s.obj i
    return { s with objs := s.objs.set i { o with unit := n } }
  | .setMatrix i m => do
    let o ← s.obj i
    if m.shape ≠ o.shape then throw .valueError
    return { s with bufs := Function.update s.bufs s.next m.at', next := s.next + 1,
                    objs := s.objs.set i { o with buf := s.next, loc := id } }

/-- A program. -/
def exec (spl : Splines K) : Mem K V → List (Stmt K V) → Res (Mem K V)
  | s, [] => .ok s
  | s, c :: cs => do exec spl (← step spl s c) cs

/-- Without any variables. -/
def Mem.empty [Inhabited V] : Mem K V := ⟨fun _ _ => default, fun _ => [], fun _ => [], fun _ => [], fun _ => [], 0, []⟩

/-- Fields which were created one after the other, for example by a reader. -/
def Mem.create [Inhabited V] (l : List (Field K V)) : Mem K V :=
  l.foldl (fun s f => s.push f [] (s.fresh f)) Mem.empty

end Postpic.Fields
