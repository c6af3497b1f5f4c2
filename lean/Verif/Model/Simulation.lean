import Verif.Py.NdArray
import Verif.Py.Range

/-!
# Model of simulation readers and of the choice of readers

`postpic/datareader/datareader.py` (`Simulationreader_ifc`), its implementations `FileSeries`,
`Visitreader`, `SmileiSeries` and `Dummysim`, and `postpic/datareader/__init__.py`.
-/

set_option autoImplicit false

namespace Postpic.Readers

open Postpic

/-- A simulation: the number of dumps and the method `_getDumpreader`. `β` is the type of dump
readers. -/
structure Sim (β : Type) where
  len : ℕ
  dumpreader : ℤ → Res β

/-- `FileSeries` (`openPMDh5.py:357-365`), `Visitreader` (`epochsdf.py:254-258`) and `SmileiSeries`
(`smileih5.py:393-401`): a list of files or keys, `open` constructs the dump reader. How the list
is found (glob, content of a file) is not modelled. -/
def fileSeries {α β : Type} (files : List α) (openDump : α → Res β) : Sim β where
  len := files.length
  dumpreader n := do openDump (← pyGet files n)

/-- `Dummysim`. The dump reader is represented by its number, which is the number of random values it draws: numpy refuses negative
ones. `dummy.py:51, 216-223`. -/
def dummySim (n : ℕ) : Sim ℤ where
  len := n
  dumpreader i := if i < n then (if i < 0 then .error .valueError else .ok i) else .error .indexError

variable {β : Type}

/-- `sim[key]` for an integer. `datareader.py:334-339`. -/
def Sim.getInt (s : Sim β) (key : ℤ) : Res β := do
  let key := if key < 0 then key + s.len else key
  if key ≥ s.len then throw .indexError
  s.dumpreader key

/-- `sim[start:stop:step]`. `datareader.py:332-333`. -/
def Sim.getSlice (s : Sim β) (start stop step : Option ℤ) : Res (List β) := do
  let r ← sliceIndices s.len start stop step
  (pyRange r.1 r.2.1 r.2.2).mapM s.getInt

/-- The argument of `sim[...]`. -/
inductive SimKey where
  | int (i : ℤ)
  | slice (start stop step : Option ℤ)
  | other

/-- The result of `sim[...]`. -/
inductive SimItem (β : Type) where
  | dump (d : β)
  | list (l : List β)

/-- `sim[key]`. `datareader.py:331-341`. -/
def Sim.getitem (s : Sim β) : SimKey → Res (SimItem β)
  | .int i => do return .dump (← s.getInt i)
  | .slice start stop step => do return .list (← s.getSlice start stop step)
  | .other => .error .typeError

/-- `for dump in sim`, from dump `i` on: `collections.abc.Sequence.__iter__` asks for `sim[i]`,
`sim[i+1]`, ... until an `IndexError`. The relation holds if the loop ends after visiting `l`. -/
inductive Sim.Visits (s : Sim β) : ℤ → List β → Prop where
  | stop (i : ℤ) : s.getInt i = .error .indexError → Sim.Visits s i []
  | next (i : ℤ) (d : β) (l : List β) : s.getInt i = .ok d → Sim.Visits s (i + 1) l →
      Sim.Visits s i (d :: l)

/-- `reversed(sim)`: `collections.abc.Sequence.__reversed__` asks for `sim[i]` for `i` in
`reversed(range(len(sim)))`. -/
def Sim.reversed (s : Sim β) : Res (List β) :=
  ((List.range s.len).reverse.map fun (i : ℕ) => (i : ℤ)).mapM s.getInt

/-! ## The choice of readers -/

/-- Python classes: dump readers, simulation readers and others. -/
inductive Cls where
  | dump (name : String)
  | sim (name : String)
  | other (name : String)
  deriving DecidableEq

/-- The global variables `_dumpreadercls` and `_simreadercls`. `__init__.py:51-52`. -/
structure Registry where
  dump : Option Cls
  sim : Option Cls
  deriving DecidableEq

/-- The state after importing the module. -/
def Registry.init : Registry := ⟨none, none⟩

/-- `setdumpreadercls`. `__init__.py:55-74`. Returns the new state and the exception, if any. -/
def setDumpCls (r : Registry) : Cls → Registry × Option Err
  | .dump n => ({ r with dump := some (.dump n) }, none)
  | _ => (r, some .genericException)

/-- `setsimreadercls`. `__init__.py:77-97`. -/
def setSimCls (r : Registry) : Cls → Registry × Option Err
  | .sim n => ({ r with sim := some (.sim n) }, none)
  | _ => (r, some .genericException)

/-- `from .module import A, B; setdumpreadercls(A); setsimreadercls(B)`. `avail m` says whether
importing the module succeeds. -/
def useReaders (avail : String → Bool) (r : Registry) (module : String) (a b : Cls) :
    Registry × Option Err :=
  if !avail module then (r, some .importError)
  else match setDumpCls r a with
    | (r, some e) => (r, some e)
    | (r, none) => setSimCls r b

/-- `str.lower()`, for ascii letters. The names compared with consist of ascii letters and digits,
and the only other character which python maps to one of these is the Kelvin sign (to `k`), which
does not occur in them. -/
def lower (s : String) : String := s.map Char.toLower

/-- `chooseCode`. `__init__.py:148-200`. -/
def chooseCode (avail : String → Bool) (r : Registry) (code : String) : Registry × Option Err :=
  if lower code ∈ ["epoch", "epoch1d", "epoch2d", "epoch3d"] then
    useReaders avail r "epochsdf" (.dump "Sdfreader") (.sim "Visitreader")
  else if lower code ∈ ["openpmd", "openpmdh5", "picongpu"] then
    useReaders avail r "openPMDh5" (.dump "OpenPMDreader") (.sim "FileSeries")
  else if lower code ∈ ["fbpic"] then
    useReaders avail r "openPMDh5" (.dump "FbpicReader") (.sim "FbpicFileSeries")
  else if lower code ∈ ["vsim"] then (r, some .genericException)
  else if lower code ∈ ["smilei"] then
    useReaders avail r "smileih5" (.dump "SmileiReader") (.sim "SmileiSeries")
  else if lower code ∈ ["dummy"] then
    useReaders avail r "dummy" (.dump "Dummyreader") (.sim "Dummysim")
  else (r, some .typeError)

/-- `readDump`: the class which is called with the arguments. `__init__.py:100-122`. -/
def readDump (r : Registry) : Res Cls :=
  match r.dump with
  | none => .error .genericException
  | some c => .ok c

/-- `readSim`. `__init__.py:125-145`. -/
def readSim (r : Registry) : Res Cls :=
  match r.sim with
  | none => .error .genericException
  | some c => .ok c

/-- A call of one of the functions. -/
inductive Call where
  | choose (code : String)
  | setDump (c : Cls)
  | setSim (c : Cls)
  | readDump
  | readSim

/-- The state after a call. -/
def Call.run (avail : String → Bool) (r : Registry) : Call → Registry
  | .choose code => (chooseCode avail r code).1
  | .setDump c => (setDumpCls r c).1
  | .setSim c => (setSimCls r c).1
  | .readDump => r
  | .readSim => r

end Postpic.Readers
