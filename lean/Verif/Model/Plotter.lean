import Mathlib.Analysis.SpecialFunctions.Log.Base
import Verif.Model.Field

/-!
# Model of the plotter

`postpic/plotting/plotter_matplotlib.py`: the names of the saved figures, and what `plotField` hands over to matplotlib. A text is a
list of characters here.
-/

set_option autoImplicit false

namespace Postpic.Plot

open Postpic Postpic.Axes Postpic.Fields

/-! ## The names of the files -/

/-- The attributes of a `MatplotlibPlotter` used here; `project` is empty if it is `None`. `plotter_matplotlib.py:62-81`. -/
structure Plotter where
  ext : List Char
  outdir : List Char
  project : List Char
  used : List (List Char)
  deriving DecidableEq

/-- A call of `savename(key, ext)`, together with `self.reader.name` at this time; `ext` is empty if it is not given. -/
structure SaveCall where
  reader : List Char
  key : List Char
  ext : List Char

/-- `name.replace('/', '_').replace(' ', '')`. `plotter_matplotlib.py:88`. -/
def cleanName (l : List Char) : List Char := (l.map fun c => if c = '/' then '_' else c).filter fun c => decide (c ≠ ' ')

/-- `str(n)` for a natural number. -/
def decimal (n : ℕ) : List Char := Nat.toDigits 10 n

/-- The name before the loop. `plotter_matplotlib.py:86-89`. -/
def Plotter.baseName (p : Plotter) (c : SaveCall) : List Char :=
  p.outdir ++ cleanName (p.project ++ '_' :: c.reader ++ '_' :: decimal p.used.length ++ '_' :: c.key)

/-- `(name + '_%d') % i`. A name which contains `%` raises TypeError or ValueError, depending on the following character (simplified:
ValueError; `%%` does not raise but becomes `%`). `plotter_matplotlib.py:90-94`. -/
def numberedName (name : List Char) (i : ℕ) : Res (List Char) :=
  if '%' ∈ name then .error .valueError else .ok (name ++ '_' :: decimal i)

/-- The loop which looks for a name that is not used; `none` if it does not end within `fuel` rounds. `plotter_matplotlib.py:91-94`. -/
def freeName (used : List (List Char)) (base : List Char) : ℕ → ℕ → List Char → Option (Res (List Char))
  | fuel, i, name =>
    if name ∈ used then
      match fuel with
      | 0 => none
      | fuel + 1 =>
        match numberedName base (i + 1) with
        | .error e => some (.error e)
        | .ok name' => freeName used base fuel (i + 1) name'
    else some (.ok name)

/-- `savename(key, ext)`: the name of the file and the plotter afterwards. `plotter_matplotlib.py:83-97`. -/
def Plotter.savename (p : Plotter) (fuel : ℕ) (c : SaveCall) : Option (Res (List Char × Plotter)) :=
  let ext := if c.ext = [] then p.ext else c.ext
  (freeName p.used (p.baseName c) fuel 0 (p.baseName c)).map fun r => do
    let name ← r
    return (name ++ '.' :: ext, { p with used := p.used ++ [name] })

/-- Save figures one after another: the names of the files and the plotter afterwards. `plotter_matplotlib.py:110-114`. -/
def Plotter.saveAll (fuel : ℕ) : Plotter → List SaveCall → Option (Res (List (List Char) × Plotter))
  | p, [] => some (.ok ([], p))
  | p, c :: cs =>
    match p.savename fuel c with
    | none => none
    | some (.error e) => some (.error e)
    | some (.ok (file, q)) =>
      match q.saveAll fuel cs with
      | none => none
      | some (.error e) => some (.error e)
      | some (.ok (files, q')) => some (.ok (file :: files, q'))

/-- `lastsavename()`. `plotter_matplotlib.py:99-108`. -/
def Plotter.lastsavename (p : Plotter) (fuel : ℕ) (reader : List Char) : Option (Res (List Char × Plotter)) :=
  match p.used.getLast? with
  | none => p.savename fuel ⟨reader, "lastsavename".toList, []⟩
  | some name => some (.ok (name, p))

/-! ## What is drawn -/

noncomputable section

/-- The colour values of a picture with two dimensions: `imshow(values, origin='lower', extent=(left, right, bottom, top))` or
`pcolormesh(x, y, values)`; the first number of a value is the row, the second one the column. `none` is minus infinity. -/
inductive Drawing where
  | image (rows cols : ℕ) (values : ℕ → ℕ → Option ℝ) (left right bottom top : ℝ)
  | mesh (x y : List ℝ) (values : ℕ → ℕ → Option ℝ)

/-- A figure: a picture with its limits of the colours (`none`: those of the data), a line, the text that there is no data, or a
picture with colours (whose contents are not modelled). -/
inductive Figure where
  | picture (d : Drawing) (logScale : Bool) (clim : Option (ℝ × ℝ)) (xlabel ylabel title : String)
  | line (points : List (ℝ × ℝ)) (logScale : Bool) (xlabel title : String)
  | skipped (key : String)
  | colours

/-- `np.log10`. -/
def log10 (v : ℝ) : Option ℝ := if 0 < v then some (Real.logb 10 v) else none

/-- The entries of a matrix with two dimensions. -/
def entries2 (f : Field ℝ ℝ) (m n : ℕ) : List ℝ :=
  (List.range m).flatMap fun i => (List.range n).map fun j => f.matrix.at' [i, j]

/-- The colour limits after `symmetricclim`: the limits of the data are made symmetric. `plotter_matplotlib.py:190-205`. -/
def symmetricLimits (l : List ℝ) : ℝ × ℝ :=
  let lo := l.foldl min (l.headD 0)
  let hi := l.foldl max (l.headD 0)
  let bound := max |lo| |hi|
  (-bound, bound)

/-- The label of an axis or of a field whose label was not set. `datahandling.py:286-292`, `datahandling.py:931-939`. -/
def labelOf (name unit : String) : String := if unit = "" then name else name ++ " [" ++ unit ++ "]"

/-- The decision for the logarithmic scale. `plotter_matplotlib.py:297-298`, `plotter_matplotlib.py:222-223`. -/
def useLog (log10plot : Bool) (l : List ℝ) : Bool := log10plot && !(l.any fun v => decide (v < 0)) && l.any fun v => decide (0 < v)

/-- `addField2d` for data with two dimensions after `squeeze`. (The arguments `xlim`, `ylim`, `contourlevels` and the lineouts change nothing here.)
`plotter_matplotlib.py:280-358`. -/
def addField2d (spl : Splines ℝ) (f : Field ℝ ℝ) (log10plot : Bool) (clim : Option (ℝ × ℝ)) : Res Figure := do
  let g ← f.squeeze spl
  match g.shape, g.axes with
  | [m, n], [ax, ay] =>
    let l := entries2 g m n
    let lg := useLog log10plot l
    let values : ℕ → ℕ → Option ℝ := fun row col =>
      if lg then log10 (g.matrix.at' [col, row]) else some (g.matrix.at' [col, row])
    let d : Drawing :=
      if ax.isLinear && ay.isLinear then .image n m values ax.extent.1 ax.extent.2 ay.extent.1 ay.extent.2
      else .mesh ax.gridNode ay.gridNode values
    let lim := match clim with
      | some c => some c
      | none => if lg then none else some (symmetricLimits l)
    return .picture d lg lim (labelOf ax.name ax.unit) (labelOf ay.name ay.unit) (labelOf g.name g.unit)
  | [_, _, k], _ => if k = 3 ∨ k = 4 then return .colours else throw .assertionError
  | _, _ => throw .assertionError

/-- `addField1d`. `plotter_matplotlib.py:215-234`. -/
def addField1d (spl : Splines ℝ) (f : Field ℝ ℝ) (log10plot : Bool) : Res Figure := do
  let g ← f.squeeze spl
  match g.shape, g.axes with
  | [n], [ax] =>
    let l := (List.range n).map fun i => g.matrix.at' [i]
    return .line (ax.grid.zip l) (useLog log10plot l) (labelOf ax.name ax.unit) (labelOf g.name g.unit)
  | _, _ => throw .assertionError

/-- `plotField(field, autoreduce, maxlen)`; the result of `autoreduce` is not used. `none` if `autoreduce` does not end within `fuel`
rounds. `raise Exception` is a RuntimeError here. `plotter_matplotlib.py:400-432`. -/
def plotField (spl : Splines ℝ) (f : Field ℝ ℝ) (autoreduce : Bool) (maxlen : ℤ) (fuel : ℕ) (log10plot : Bool)
    (clim : Option (ℝ × ℝ)) : Option (Res Figure) :=
  match f.squeeze spl with
  | .error e => some (.error e)
  | .ok g =>
    match (if autoreduce then g.autoreduce spl maxlen fuel else some (.ok g)) with
    | none => none
    | some (.error e) => some (.error e)
    | some (.ok _) => some <|
      if g.dims ≤ 0 then .ok (.skipped g.name)
      else if g.dims = 1 then addField1d spl g log10plot
      else if g.dims = 2 ∨ g.dims = 3 ∧ (g.shape.getD 2 0 = 3 ∨ g.shape.getD 2 0 = 4) then addField2d spl g log10plot clim
      else .error .runtimeError

/-- `_addxlineout(ax, field.matrix.T, field.extent, log10)`: the points of the line with the mean of each column.
`plotter_matplotlib.py:256-265`. -/
def xLineout (f : Field ℝ ℝ) (log : Bool) : Res (List (ℝ × Option ℝ)) :=
  match f.shape, f.axes with
  | [m, n], [ax, _] =>
    let lout := (List.range m).map fun i => ((List.range n).map fun j => f.matrix.at' [i, j]).sum / (n : ℝ)
    .ok ((linspace ax.extent.1 ax.extent.2 m).zip (lout.map fun v => if log then log10 v else some v))
  | _, _ => .error .indexError

/-- `_addylineout(ax, field.matrix.T, field.extent, log10)`: the points of the line with the mean of each row, as (position, value); the value is
drawn along the first axis of the figure. `plotter_matplotlib.py:267-278`. -/
def yLineout (f : Field ℝ ℝ) (log : Bool) : Res (List (ℝ × Option ℝ)) :=
  match f.shape, f.axes with
  | [m, n], [_, ay] =>
    let lout := (List.range n).map fun j => ((List.range m).map fun i => f.matrix.at' [i, j]).sum / (m : ℝ)
    .ok ((linspace ay.extent.1 ay.extent.2 n).zip (lout.map fun v => if log then log10 v else some v))
  | _, _ => .error .indexError

end

/-- The fields of a call of `addFields1d`: the number of dimensions and the list `infos`. -/
structure InfoField where
  dims : ℤ
  infos : List String
  deriving DecidableEq

/-- `addFields1d(ax, *fields, **kwargs)`: the lists `infos` of the fields of the caller afterwards. The keywords are passed on to `addField1d`, which refuses
unknown ones with a TypeError. `plotter_matplotlib.py:216-217`, `plotter_matplotlib.py:236-253`. -/
def addFields1d (fields : List InfoField) (keywords : List String) : Res (List InfoField) :=
  match fields with
  | [] => .error .nameError
  | f0 :: _ =>
    let clear := !(fields.all fun f => decide (f.infos = f0.infos))
    if (fields.any fun f => decide (0 < f.dims)) ∧ ¬ keywords.all (· ∈ ["log10plot", "xlim", "ylim", "scaletight"]) then .error .typeError
    else if fields.any fun f => decide (1 < f.dims) then .error .assertionError
    else .ok (fields.map fun f => if 0 < f.dims ∧ clear then { f with infos := [] } else f)

/-- `plotFields1d(*fields, **kwargs)` up to the export of csv files: the keyword `name` is removed, all others are passed on.
`plotter_matplotlib.py:364-383`. -/
def plotFields1d (fields : List InfoField) (keywords : List String) : Res (List InfoField) :=
  addFields1d fields (keywords.filter (· ≠ "name"))

end Postpic.Plot
