import Verif.Model.FieldHeap

/-!
# Specification: fields behave like values

The meaning of the same statements if no two variables share anything: a statement which computes something adds one
field to the list of variables, a statement which changes a field changes this variable only.
-/

set_option autoImplicit false

noncomputable section

namespace Postpic.Spec

open Postpic Postpic.Axes Postpic.Fields

variable {K V : Type} [_root_.Field K] [LinearOrder K]

/-- The variables: fields with their infos. -/
abbrev Vars (K V : Type) := List (Fields.Field K V × List String)

/-- The value of a variable. -/
def Vars.get (vs : Vars K V) (i : ℕ) : Res (Fields.Field K V × List String) :=
  match vs[i]? with
  | some v => .ok v
  | none => .error .nameError

open Classical in
/-- One statement. -/
def valueStep (spl : Splines K) (vs : Vars K V) : Stmt K V → Res (Vars K V)
  | .copy i _ => do return vs ++ [← vs.get i]
  | .number i g c => do return vs ++ [(← (← vs.get i).1.binaryNumber g c, [])]
  | .unary i u => do return vs ++ [(← (← vs.get i).1.unary u, [])]
  | .array i g b => do return vs ++ [(← (← vs.get i).1.binaryArray g b, [])]
  | .binary i j g => do
    let v ← vs.get i
    let w ← vs.get j
    return vs ++ [(← v.1.binary g w.1, [])]
  | .reduce i red axis kd => do return vs ++ [(← (← vs.get i).1.reduce spl red axis kd, [])]
  | .outer i j g => do
    let v ← vs.get i
    let w ← vs.get j
    return vs ++ [(← v.1.outer g w.1, [])]
  | .replaceData i m => do
    let v ← vs.get i
    return vs ++ [(← v.1.replaceData m, v.2)]
  | .real i => do return vs ++ [← vs.get i]
  | .getitem i key => do
    let v ← vs.get i
    return vs ++ [(← v.1.getitem spl key, v.2)]
  | .setitem i idx v => do
    let f ← vs.get i
    if InBounds f.1.shape idx then
      return vs.set i ({ f.1 with matrix := ⟨f.1.shape, Function.update f.1.matrix.at' idx v⟩ }, f.2)
    else throw .indexError
  | .inplace i g c => do
    let f ← vs.get i
    return vs.set i ({ f.1 with matrix := ⟨f.1.shape, fun idx =>
      if InBounds f.1.shape idx then g (f.1.matrix.at' idx) c else f.1.matrix.at' idx⟩ }, f.2)
  | .setaxisobj i d ax => do
    let f ← vs.get i
    checkAxisObj f.1.shape d ax
    return vs.set i ({ f.1 with axes := ← pySet f.1.axes d ax }, f.2)
  | .editAxes i e => do
    let f ← vs.get i
    return vs.set i ({ f.1 with axes := e f.1.axes }, f.2)
  | .editStates i e => do
    let f ← vs.get i
    return vs.set i ({ f.1 with ats := e f.1.ats }, f.2)
  | .editOrigins i e => do
    let f ← vs.get i
    return vs.set i ({ f.1 with tao := e f.1.tao }, f.2)
  | .editInfos i e => do
    let f ← vs.get i
    return vs.set i (f.1, e f.2)
  | .setName i s => do
    let f ← vs.get i
    return vs.set i ({ f.1 with name := s }, f.2)
  | .setUnit i s => do
    let f ← vs.get i
    return vs.set i ({ f.1 with unit := s }, f.2)
  | .setMatrix i m => do
    let f ← vs.get i
    if m.shape ≠ f.1.shape then throw .valueError
    return vs.set i ({ f.1 with matrix := m }, f.2)

/-- A program. -/
def valueExec (spl : Splines K) : Vars K V → List (Stmt K V) → Res (Vars K V)
  | vs, [] => .ok vs
  | vs, c :: cs => do valueExec spl (← valueStep spl vs c) cs

/-- The statements whose result refers to the lists of transform states and origins of its operand. -/
def SharesStates : Stmt K V → Prop
  | .number .. | .unary .. => True
  | _ => False

/-- The statements which change lists of transform states or origins in place. -/
def EditsStates : Stmt K V → Prop
  | .editStates .. | .editOrigins .. => True
  | _ => False

/-- The statements whose result is a view of the array of the operand: shallow copies, `real`, indexing. -/
def SharesData : Stmt K V → Prop
  | .copy _ false | .real .. | .getitem .. => True
  | _ => False

/-- The statements which write to the array in place. -/
def WritesData : Stmt K V → Prop
  | .setitem .. | .inplace .. => True
  | _ => False

/-- The variable a statement changes; the other statements compute a new field. -/
def changes : Stmt K V → Option ℕ
  | .setitem i .. | .inplace i .. | .setaxisobj i .. | .editAxes i _ | .editStates i _ | .editOrigins i _
  | .editInfos i _ | .setName i _ | .setUnit i _ | .setMatrix i _ => some i
  | _ => none

end Postpic.Spec
