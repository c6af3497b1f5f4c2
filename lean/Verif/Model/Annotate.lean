import Mathlib.Data.Rat.Floor
import Verif.Py.NdArray

/-!
# Model of the texts in figures

`settext_fig`, `settext_ax`, `annotate` and their callers in `postpic/plotting/plotter_matplotlib.py:116-188, 236-253, 360-398`. A
text is a list of characters. Places are given by names instead of coordinates: each name stands for one pair of coordinates of
a figure and one pair of coordinates of its axes.
-/

set_option autoImplicit false

namespace Postpic.Plot

open Postpic

/-- Where a text is drawn: the title, upper right, upper left, each with a second line, and in the middle. -/
inductive Place where
  | title | ur | ur2 | ul | ul2 | center
  deriving DecidableEq

/-- The texts which are drawn, in this order. -/
abbrev Texts := List (Place × List Char)

/-- `if text: ... text(...)`; `None` and the empty text are skipped. -/
def setOne (p : Place) : Option (List Char) → Texts
  | none => []
  | some [] => []
  | some (a :: l) => [(p, a :: l)]

/-- `settext_fig(fig, title, ur, ur2, ul, ul2, center)`. `plotter_matplotlib.py:117-130`. -/
def settextFig (title ur ur2 ul ul2 center : Option (List Char)) : Texts :=
  setOne .title title ++ setOne .ur ur ++ setOne .ur2 ur2 ++ setOne .ul ul ++ setOne .ul2 ul2 ++ setOne .center center

/-- `settext_ax(ax, title, ur, ur2, ul, ul2, center)`. `plotter_matplotlib.py:133-146`. -/
def settextAx (title ur ur2 ul ul2 center : Option (List Char)) : Texts :=
  setOne .title title ++ setOne .ur2 ur2 ++ setOne .ur ur ++ setOne .ul2 ul2 ++ setOne .ul ul ++ setOne .center center

/-- A value which python formats: a float, an integer, or something else with its text, which is not false. -/
inductive Stamp where
  | float (x : ℚ)
  | int (n : ℤ)
  | other (text : List Char)

/-- The integer next to `x ≥ 0`, the even one of two. -/
def roundEven (x : ℚ) : ℕ :=
  let n := ⌊x⌋.toNat
  let r := x - n
  if 1 / 2 < r ∨ (r = 1 / 2 ∧ n % 2 = 1) then n + 1 else n

/-- `-` for negative numbers. -/
def signOf (x : ℚ) : List Char := if x < 0 then ['-'] else []

/-- `'{:.1f}'.format(x)`. -/
def format1f (x : ℚ) : List Char :=
  let n := roundEven (|x| * 10)
  signOf x ++ Nat.toDigits 10 (n / 10) ++ '.' :: Nat.toDigits 10 (n % 10)

/-- `'{:6.0f}'.format(x)`. -/
def format60f (x : ℚ) : List Char := (signOf x ++ Nat.toDigits 10 (roundEven |x|)).leftpad 6 ' '

/-- `str(n)` for an integer. -/
def strInt (n : ℤ) : List Char := (if n < 0 then ['-'] else []) ++ Nat.toDigits 10 n.natAbs

/-- The text for the time. Floating point numbers are rational numbers here, the product is exact. `plotter_matplotlib.py:151-156`. -/
def timeText : Option Stamp → List Char
  | none => []
  | some (.float x) => if x = 0 then [] else format1f (1000000000000000 * x) ++ " fs".toList
  | some (.int n) => if n = 0 then [] else strInt n
  | some (.other l) => l

/-- The text for the step. `plotter_matplotlib.py:157-161`. -/
def stepText : Option Stamp → List Char
  | none => []
  | some (.float x) => if x = 0 then [] else ", step: ".toList ++ format60f x
  | some (.int n) => if n = 0 then [] else ", step: ".toList ++ format60f n
  | some (.other l) => ' ' :: l

/-- `str(l)` for a list of texts without special characters. -/
def strList (l : List (List Char)) : List Char :=
  '[' :: ((l.map fun t => '\'' :: t ++ ['\'']).intersperse [',', ' ']).flatten ++ [']']

/-- The keyword arguments of `annotate`. -/
structure Notes where
  title : Option (List Char) := none
  time : Option Stamp := none
  step : Option Stamp := none
  project : Option (List Char) := none
  dump : Option (List Char) := none
  infostring : Option (List Char) := none
  infos : Option (List (List Char)) := none

/-- `center`. `plotter_matplotlib.py:165`. -/
def centerText : Option (List (List Char)) → Option (List Char)
  | none => none
  | some l => if l = [] ∨ l = [[]] then none else some (strList l)

/-- `annotate(figorax, ...)`. `plotter_matplotlib.py:149-170`. -/
def annotate (isAxes : Bool) (a : Notes) : Texts :=
  let ur := timeText a.time ++ stepText a.step
  (if isAxes then settextAx else settextFig) a.title (some ur) a.infostring a.project a.dump (centerText a.infos)

/-- What is used of a field. -/
structure FieldNotes where
  dims : ℤ
  label : List Char
  infostring : List Char
  infos : List (List Char)

/-- `annotate_fromfield(figorax, field)`. `plotter_matplotlib.py:173-177`. -/
def annotateFromField (isAxes : Bool) (f : FieldNotes) : Texts :=
  annotate isAxes { title := some f.label, infostring := some f.infostring, infos := some f.infos }

/-- What a reader returns: time, step, name. -/
structure ReaderNotes where
  time : Stamp
  step : Stamp
  name : List Char

/-- `annotate_fromreader(fig, reader)`; a reader without these methods, for example `None`, raises an AttributeError.
`plotter_matplotlib.py:180-188`, `plotter_matplotlib.py:360-362`. -/
def annotateFromReader (isAxes : Bool) : Res ReaderNotes → Res Texts
  | .ok r => .ok (annotate isAxes { time := some r.time, step := some r.step, dump := some r.name })
  | .error e => if e = .attributeError then .ok (annotate isAxes {}) else .error e

/-- The texts of a figure and of its axes. -/
structure Annotated where
  fig : Texts
  ax : Texts

/-- `plotField2d(field)`. `plotter_matplotlib.py:357`, `plotter_matplotlib.py:385-391`. -/
def plot2dTexts (project : Option (List Char)) (reader : Res ReaderNotes) (f : FieldNotes) : Res Annotated := do
  let ax := annotateFromField true f
  let fig ← annotateFromReader false reader
  return ⟨fig ++ annotate false { project := project }, ax ++ annotate true { infostring := some f.infostring }⟩

/-- `addFields1d(ax, *fields)`: after the loop the variable `field` is the last one. `plotter_matplotlib.py:236-253`. -/
def fields1dTexts (fields : List FieldNotes) : Res Texts :=
  match fields.getLast? with
  | none => .error .nameError
  | some last =>
    let clear := !(fields.all fun f => decide (f.infos = (fields.headD last).infos))
    let last := if 0 < last.dims ∧ clear then { last with infos := [] } else last
    let infostrings := (fields.filter fun f => decide (0 < f.dims)).map FieldNotes.infostring
    .ok (annotateFromField true last ++ annotate true { infostring := some (strList infostrings) })

/-- `plotFields1d(*fields)`; without fields `fields[0]` raises an IndexError. `plotter_matplotlib.py:364-372`. -/
def plot1dTexts (project : Option (List Char)) (reader : Res ReaderNotes) (fields : List FieldNotes) : Res Annotated := do
  if fields.isEmpty then throw .indexError
  let ax ← fields1dTexts fields
  let fig ← annotateFromReader false reader
  return ⟨fig ++ annotate false { project := project },
    ax ++ annotate true { infostring := some (strList (fields.map FieldNotes.infostring)) }⟩

end Postpic.Plot
