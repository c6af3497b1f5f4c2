import Verif.Model.ReaderGrid
import Verif.Model.Operators
import Mathlib.Analysis.SpecialFunctions.Complex.Arg

/-!
# Model of the properties of fields

Setting the extent, spacings, complex parts and `evaluate`.
-/

set_option autoImplicit false

namespace Postpic.Fields

open Postpic Postpic.Axes Postpic.Readers

section
variable {K V : Type} [_root_.Field K] [LinearOrder K]

/-- `field.setaxisobj(axis, axisobj)`: the field afterwards and the exception. `datahandling.py:914-926`. -/
def Field.setAxisObj (f : Field K V) (key : AxisKey) (ax : Axis K) : Field K V × Option Err :=
  match axesidentify key with
  | .error e => (f, some e)
  | .ok id =>
    match f.shape[id % 90]? with
    | none => (f, some .indexError)
    | some n =>
      if ax.len ≠ n then (f, some .valueError)
      else if id % 90 < f.axes.length then ({ f with axes := f.axes.set (id % 90) ax }, none)
      else (f, some .indexError)

/-- `field.extent`. `datahandling.py:997-1003`. -/
def Field.extent (f : Field K V) : List K := f.axes.flatMap fun ax => [ax.extent.1, ax.extent.2]

/-- The loop in the assignment to `field.extent`; `i` counts up to the number of axes. An exception leaves the axes
which were set before. `datahandling.py:1012-1019`. -/
def Field.setExtentFrom (spl : Splines K) (newextent : List K) : ℕ → ℕ → Field K V → Field K V × Option Err
  | 0, _, f => (f, none)
  | todo + 1, i, f =>
    match f.axes[i]?, f.shape[i]? with
    | some ax, some n =>
      if !ax.isLinear then (f, some .typeError)
      else match (newextent.drop (2 * i)).take 2 with
        | [a, b] =>
          match mkAxis spl { name := ax.name, unit := ax.unit, extent := some (a, b), n := some (n : ℤ) } with
          | .error e => (f, some e)
          | .ok newax =>
            match f.setAxisObj (.int i) newax with
            | (g, some e) => (g, some e)
            | (g, none) => Field.setExtentFrom spl newextent todo (i + 1) g
        | _ => (f, some .valueError)
    | _, _ => (f, some .indexError)

/-- `field.extent = newextent`: the field afterwards and the exception. `datahandling.py:1005-1020`. -/
def Field.setExtent (spl : Splines K) (f : Field K V) (newextent : List K) : Field K V × Option Err :=
  if f.dims * 2 ≠ newextent.length then (f, some .typeError)
  else f.setExtentFrom spl newextent f.axes.length 0

/-- `field.squeeze(axis)`: if the argument is given, the name `iterable` is not defined. `datahandling.py:1560-1587`. -/
def Field.squeezeAt (spl : Splines K) (f : Field K V) : Option (List ℤ) → Res (Field K V)
  | none => f.squeeze spl
  | some _ => .error .nameError

/-- `field.spacing`. `datahandling.py:1022-1027`. -/
def Field.spacings (f : Field K V) : Res (List K) := f.axes.mapM fun ax => ax.spacing

end

/-! ### Complex fields -/

section
variable {K V W : Type} [_root_.Field K] [LinearOrder K]

/-- A function applied to all values. -/
def Arr.each (g : V → W) (a : Arr V) : Arr W := ⟨a.shape, fun idx => g (a.at' idx)⟩

/-- `field.real`. `datahandling.py:1029-1031`. -/
def Field.real (f : Field K ℂ) : Res (Field K ℝ) := f.replaceData (Arr.each Complex.re f.matrix)

/-- `field.imag`. `datahandling.py:1033-1035`. -/
def Field.imag (f : Field K ℂ) : Res (Field K ℝ) := f.replaceData (Arr.each Complex.im f.matrix)

/-- `field.angle`; the sign of zeros is not modelled. `datahandling.py:1037-1039`. -/
noncomputable def Field.angle (f : Field K ℂ) : Res (Field K ℝ) := f.replaceData (Arr.each Complex.arg f.matrix)

/-- `field.phase(do_unwrap_phase)`; `unwrap` is the function of skimage, `none` if it could not be imported: then `None` is
called. `datahandling.py:82-90`, `1041-1053`. -/
noncomputable def Field.phase (unwrap : Option (Arr ℝ → Arr ℝ)) (f : Field K ℂ) (doUnwrap : Bool) : Res (Field K ℝ) := do
  let phase := Arr.each Complex.arg f.matrix
  let phase ← if doUnwrap then
      (match unwrap with
        | some u => (.ok (u phase) : Res (Arr ℝ))
        | none => .error .typeError)
    else .ok phase
  let ret ← f.replaceData phase
  return { ret with name := "$\\varphi$(" ++ f.name ++ ")", unit := "rad" }

/-- `field.conj()`. `datahandling.py:1055-1056`. -/
noncomputable def Field.conj (f : Field K ℂ) : Res (Field K ℂ) :=
  ufuncCall1 (starRingEnd ℂ) f

end

/-! ### evaluate -/

/-- An expression for numexpr: numbers, names, and functions of one or two arguments. -/
inductive NeExpr (V : Type) where
  | num (c : V)
  | var (name : String)
  | un (g : V → V) (e : NeExpr V)
  | bin (g : V → V → V) (e₁ e₂ : NeExpr V)

section
variable {K V : Type}

/-- `ne.evaluate(ex, local_dict, global_dict)`: a name is looked up among the local variables first, an unknown name is a
KeyError; arrays are broadcast. A field counts as its array. -/
def NeExpr.eval (locals globals : List (String × Arr V)) : NeExpr V → Res (Arr V)
  | .num c => .ok ⟨[], fun _ => c⟩
  | .var name => match locals.lookup name with
    | some a => .ok a
    | none => match globals.lookup name with
      | some a => .ok a
      | none => .error .keyError
  | .un g e => do return Arr.each g (← e.eval locals globals)
  | .bin g e₁ e₂ => do
    let a ← e₁.eval locals globals
    let b ← e₂.eval locals globals
    Arr.binary g a b

/-- Where the method is called: in a function, where `f_locals` is a copy of the local variables (python up to 3.12); at the
top of a module, where the local variables are the global ones; or in the body of a class or code run by `exec` with a
dictionary of its own, where `f_locals` is the dictionary of the variables. -/
inductive FrameKind where
  | function
  | top
  | dictionary
  deriving DecidableEq

/-- The variables of the caller. At the top of a module the list of local variables is not used. -/
structure Frame (V : Type) where
  kind : FrameKind
  locals : List (String × Arr V)
  globals : List (String × Arr V)

/-- `call_frame.f_locals`. -/
def Frame.fLocals (fr : Frame V) : List (String × Arr V) := if fr.kind = .top then fr.globals else fr.locals

/-- `field.evaluate(ex, local_dict, global_dict)`: the result, and the variables of the caller afterwards.
`datahandling.py:1063-1098`. -/
def Field.evaluate [_root_.Field K] [LinearOrder K] (f : Field K V) (ex : NeExpr V) (localDict globalDict : Option (List (String × Arr V))) (fr : Frame V) :
    Res (Field K V) × Frame V :=
  let ret : Res (Field K V) := do
    let m ← ex.eval (localDict.getD fr.fLocals) (globalDict.getD fr.globals)
    f.replaceData m
  let clear := localDict.isNone && decide (fr.kind ≠ .top)
  (ret, if clear && decide (fr.kind = .dictionary) then { fr with locals := [] } else fr)

end

end Postpic.Fields
