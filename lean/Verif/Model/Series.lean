import Mathlib.Data.Char
import Mathlib.Data.List.Lex
import Mathlib.Data.List.Sort
import Verif.Model.Simulation

/-!
# Model of series of files, of the iterations in a file, and of the identity of dumps

`postpic/datareader/datareader.py` (`__eq__`, `name`, `times`), the constructors of `FileSeries`, `OpenPMDreader`, `SmileiReader`,
`SmileiSeries`, `Visitreader` and `Dummyreader`, and `MultiSpecies.dumpreader`. A text is a list of characters.
-/

set_option autoImplicit false

namespace Postpic.Readers

open Postpic

/-- `list.sort()` of strings: python compares them character by character. All sorting algorithms give the same list. -/
def sortNames (l : List (List Char)) : List (List Char) := l.insertionSort (· ≤ ·)

/-! ## Series of files -/

/-- `FileSeries`: `globbed` are the names which `glob.glob` returns, in any order. `openPMDh5.py:350-365`. -/
def globSeries {β : Type} (globbed : List (List Char)) (openDump : List Char → Res β) : Sim β :=
  fileSeries (sortNames globbed) openDump

/-- `times` and `timesteps`: `ts` is the list the call returns. `datareader.py:371-375`. -/
def Sim.TimesAre {β K : Type} (s : Sim β) (time : β → Res K) (ts : List K) : Prop :=
  ∃ l : List β, s.Visits 0 l ∧ l.mapM time = .ok ts

/-- `for line in f`, with `line.replace('\n', '')` applied: the text up to the next `'\n'`; after the last one there is a line only
if it has characters. The translation of `'\r\n'` to `'\n'` by `open` has been done. `acc` is the part of the line already read.
`epochsdf.py:251-253`. -/
def linesFrom (acc : List Char) : List Char → List (List Char)
  | [] => if acc = [] then [] else [acc]
  | c :: cs => if c = '\n' then acc :: linesFrom [] cs else linesFrom (acc ++ [c]) cs

/-- `os.path.join(path, line)` (posix). -/
def joinPath (path line : List Char) : List Char :=
  match line with
  | '/' :: _ => line
  | _ => if path = [] ∨ path.getLast? = some '/' then path ++ line else path ++ '/' :: line

/-- The list `_dumpfiles` of a `Visitreader`; `path` is the absolute directory of the file. `epochsdf.py:248-253`. -/
def visitFiles (path text : List Char) : List (List Char) := (linesFrom [] text).map (joinPath path)

/-- `Visitreader`. `epochsdf.py:241-258`. -/
def visitSeries {β : Type} (path text : List Char) (openDump : List Char → Res β) : Sim β :=
  fileSeries (visitFiles path text) openDump

/-! ## Iterations in hdf5 files -/

/-- A dataset below `/data/<iteration>/<key>`. Groups are represented by the datasets in them, attributes are left out. -/
structure Entry (D : Type) where
  iteration : List Char
  key : List Char
  value : D
  deriving DecidableEq

/-- The content of a hdf5 file. -/
abbrev H5 (D : Type) := List (Entry D)

/-- `list(h5['data'].keys())`: h5py lists the names of a group in their order as strings. -/
def H5.iterations {D : Type} (h : H5 D) : List (List Char) := sortNames (h.map Entry.iteration).dedup

/-- `int(s)` for a string: digits. Simplified: blanks, signs and underscores are not accepted here. -/
def pyInt (s : List Char) : Res ℤ :=
  if s ≠ [] ∧ s.all Char.isDigit then .ok (Nat.ofDigitChars 10 s 0) else .error .valueError

/-- `'{:0wd}'.format(n)`; `w = 0` is `'{:d}'`. -/
def formatInt (w : ℕ) (n : ℤ) : List Char :=
  if n < 0 then '-' :: (Nat.toDigits 10 n.natAbs).leftpad (w - 1) '0' else (Nat.toDigits 10 n.natAbs).leftpad w '0'

/-- What an opened dump gives access to: the number and the datasets of one iteration. -/
structure Opened (D : Type) where
  iteration : ℤ
  data : List (List Char × D)
  deriving DecidableEq

/-- `h5['/data/<name>/']`: KeyError if there is no such group. -/
def H5.group {D : Type} (h : H5 D) (name : List Char) : Res (List (List Char × D)) :=
  if name ∈ h.map Entry.iteration then
    .ok ((h.filter fun e => decide (e.iteration = name)).map fun e => (e.key, e.value))
  else .error .keyError

/-- `int(list(h5['data'].keys())[0])`. -/
def H5.first {D : Type} (h : H5 D) : Res ℤ := do pyInt (← pyGet h.iterations 0)

/-- `OpenPMDreader(h5file, iteration)` for an existing file. `openPMDh5.py:56-67`. -/
def openPMD {D : Type} (h : H5 D) (iteration : Option ℤ) : Res (Opened D) := do
  let it ← match iteration with
    | none => h.first
    | some i => .ok i
  return ⟨it, ← h.group (formatInt 0 it)⟩

/-- The argument `iteration` of `SmileiReader`. -/
inductive IterArg where
  | none
  | int (i : ℤ)
  | str (s : List Char)

/-- `_iteration` of a `SmileiReader`; a string is never equal to a number. `smileih5.py:124-129`. -/
def smileiIteration {D : Type} (h : H5 D) : IterArg → Res ℤ
  | .none => h.first
  | .int i => do
    let l ← h.iterations.mapM pyInt
    if i ∈ l then .ok i else .error .ioError
  | .str _ => do
    let _ ← h.iterations.mapM pyInt
    .error .ioError

/-- `SmileiReader(h5file, iteration)`, where `h` is the content of the file or of the index file. `smileih5.py:110-132`. -/
def openSmilei {D : Type} (h : H5 D) (iteration : IterArg) : Res (Opened D) := do
  let it ← smileiIteration h iteration
  return ⟨it, ← h.group (formatInt 10 it)⟩

/-- A directory of a Smilei simulation: the h5 files which `glob` finds (the index file is hidden and therefore not among them) and
the content of the index file. -/
structure SmileiDir (D : Type) where
  files : List (H5 D)
  index : Option (H5 D)

/-- Add the datasets of a file to the index; a name which exists already raises an exception, and what has been written remains.
`smileih5.py:50-62`. -/
def addEntries {D : Type} (ih : H5 D) : H5 D → H5 D × Option Err
  | [] => (ih, none)
  | e :: es =>
    if (e.iteration, e.key) ∈ ih.map (fun x => (x.iteration, x.key)) then (ih, some .runtimeError)
    else addEntries (ih ++ [e]) es

/-- `_generateh5indexfile` for a file which does not exist yet: its content afterwards, and the exception. A file which cannot be
opened is `none`. `smileih5.py:64-67`. -/
def generateIndex {D : Type} (ih : H5 D) : List (Option (H5 D)) → H5 D × Option Err
  | [] => (ih, none)
  | none :: _ => (ih, some .ioError)
  | some f :: fs =>
    match addEntries ih f with
    | (ih, some e) => (ih, some e)
    | (ih, none) => generateIndex ih fs

/-- `_getindexfile(path)`: an index file which exists is used as it is. `broken` says which files cannot be opened. The result
includes the directory afterwards. `smileih5.py:70-82`, `46-48`. -/
def SmileiDir.getIndex {D : Type} (d : SmileiDir D) (broken : H5 D → Bool) : SmileiDir D × Res (H5 D) :=
  match d.index with
  | some h => (d, .ok h)
  | none =>
    match generateIndex [] (d.files.map fun f => if broken f then none else some f) with
    | (h, some e) => ({ d with index := some h }, .error e)
    | (h, none) => ({ d with index := some h }, .ok h)

/-- `SmileiSeries(path)` for a directory whose index has the content `h`. `smileih5.py:386-401`. -/
def smileiDirSeries {D : Type} (h : H5 D) : Res (Sim (Opened D)) := do
  let keys ← h.iterations.mapM pyInt
  return fileSeries keys fun k => openSmilei h (.int k)

/-- `SmileiSeries(h5file)` for a file; the keys are strings. `smileih5.py:382-385`, `393-401`. -/
def smileiFileSeries {D : Type} (h : H5 D) : Sim (Opened D) := fileSeries h.iterations fun k => openSmilei h (.str k)

/-! ## The identity of dumps -/

/-- A `dumpidentifier`: a string or a number. -/
inductive Ident where
  | str (s : List Char)
  | int (i : ℤ)
  deriving DecidableEq

/-- `str(dumpidentifier)`. -/
def Ident.toStr : Ident → List Char
  | .str s => s
  | .int i => formatInt 0 i

/-- The class of a reader and its attributes: `Dummyreader` with the function, seed and dimensions, another class with the iteration
it shows. -/
inductive Kind where
  | dummy (randfunc : ℕ) (seed : Option ℤ) (dimensions : ℤ)
  | file (cls : List Char) (iteration : Option ℤ)
  deriving DecidableEq

/-- The attributes of a dump reader used here. `datareader.py:85-88`, `dummy.py:43-47`. -/
structure Dump where
  ident : Ident
  kind : Kind
  deriving DecidableEq

/-- The file system: the file a path leads to, if there is one. `os.path.isfile` says whether there is one, `os.path.samefile`
whether it is the same. -/
abbrev Paths := List Char → Option ℕ

/-- `Dumpreader_ifc.__eq__`. `datareader.py:280-303`. -/
def baseEq (fs : Paths) (a b : Dump) : Bool :=
  match fs a.ident.toStr, fs b.ident.toStr with
  | some x, some y => decide (x = y)
  | _, _ => decide (a.ident = b.ident)

/-- `a == b`; `Dummyreader` overrides `__eq__`. Neither class derives from the other. `dummy.py:69-74`. -/
def Dump.eq (fs : Paths) (a b : Dump) : Res Bool :=
  match a.kind with
  | .file _ _ => .ok (baseEq fs a b)
  | .dummy r s d =>
    if baseEq fs a b then
      match b.kind with
      | .dummy r' s' d' => .ok (decide (r = r') && decide (s = s') && decide (d = d'))
      | .file _ _ => .error .attributeError
    else .ok false

/-- `MultiSpecies.dumpreader`, given the dumps of the species. Falling off the end of the function returns `None`.
`particles.py:382-395`. -/
def dumpreaderOf (fs : Paths) : List Dump → Res (Option Dump)
  | [] => .ok none
  | d :: ds => do
    let eqs ← (d :: ds).mapM fun x => Dump.eq fs d x
    if eqs.all id then return some d else return none

/-- `MultiSpecies.simgridpoints`: the result of the dump is not returned. `particles.py:406-415`. -/
def simgridpointsOf {N : Type} (gridpoints : Dump → Res N) : List Dump → Res (Option N)
  | [] => .error .indexError
  | d :: _ =>
    match gridpoints d with
    | .ok _ => .ok none
    | .error .attributeError => .ok none
    | .error .keyError => .ok none
    | .error e => .error e

/-! ## Names -/

/-- A value given as name. -/
inductive NameVal where
  | none
  | int (i : ℤ)
  | str (s : List Char)
  deriving DecidableEq

/-- `bool(val)`. -/
def NameVal.truthy : NameVal → Bool
  | .none => false
  | .int i => decide (i ≠ 0)
  | .str s => decide (s ≠ [])

/-- `str(val)`. -/
def NameVal.toStr : NameVal → List Char
  | .none => "None".toList
  | .int i => formatInt 0 i
  | .str s => s

/-- The getter `name` of dumps and simulations. `datareader.py:266-271`, `350-355`. -/
def nameOf (ident : Ident) (name : NameVal) : NameVal := if name.truthy then name else .str ident.toStr

/-- The setter: the new `_name`. `datareader.py:274-275`, `358-359`. -/
def setName (val : NameVal) : NameVal := if val.truthy then .str val.toStr else .none

end Postpic.Readers
