import Mathlib.Data.Nat.Notation
import Verif.Py.Err

/-!
# Model: creating readers (`datareader.py`, `epochsdf.py`, `openPMDh5.py`, `smileih5.py`, `dummy.py`, `vsimhdf5.py`)

Classes with their methods and how the methods `__init__` call each other. Modelled are the rules of python for classes with abstract methods
(`abc.ABCMeta`) and for `super`. What `__init__` does afterwards (opening files) is part of other models, and so is the positional argument which
identifies the dump: here only the names of the keyword arguments matter.
-/

set_option autoImplicit false

namespace Postpic.Classes

/-- The call of `__init__` of another class. -/
inductive Super where
  /-- `super(C, self).__init__` -/
  | named (cls : String)
  /-- `super(self.__class__, self).__init__` -/
  | dynamic
  deriving DecidableEq

/-- A method `__init__`: the keywords it uses itself, whether it accepts other keywords (`**kwargs`), which it then passes on, and the call of the
next `__init__`, if any. -/
structure Init where
  params : List String
  kwargs : Bool
  super : Option Super
  deriving DecidableEq

/-- A class: abstract and other methods. -/
structure PyClass where
  name : String
  abstract : List String
  methods : List String
  init : Option Init
  deriving DecidableEq

/-- `__abstractmethods__` of a class, as computed by `ABCMeta.__new__` (python standard library): the abstract methods of the class and those of its base classes for
which `getattr` finds an abstract method. The list contains the class and its base classes in the order of `__mro__`; all classes have only one
base class. -/
def abstracts : List PyClass → List String
  | [] => []
  | c :: bases => c.abstract ++ (abstracts bases).filter fun m => decide (m ∉ c.methods)

/-- The first class with a method `__init__`. -/
def findInit : List PyClass → Option (PyClass × Init)
  | [] => none
  | c :: bases => match c.init with
    | some i => some (c, i)
    | none => findInit bases

/-- Where `super` begins to search: behind the named class, or behind the class of the object, which is the first one. -/
def superStart (mro : List PyClass) : Super → List PyClass
  | .named c => (mro.dropWhile fun k => decide (k.name ≠ c)).tail
  | .dynamic => mro.tail

/-- Calling `__init__`, searched in `search`, with the given keyword arguments for an object of the class with the classes `mro`. The result is the
list of the classes whose `__init__` was called. `limit` is the number of nested calls python allows (`sys.getrecursionlimit`). -/
def runInit (mro : List PyClass) : ℕ → List PyClass → List String → Res (List String)
  | 0, _, _ => .error .recursionError
  | limit + 1, search, kw =>
    match findInit search with
    | none => if kw = [] then .ok [] else .error .typeError
    | some (c, i) =>
      if i.kwargs = false ∧ kw.filter (fun k => decide (k ∉ i.params)) ≠ [] then .error .typeError
      else match i.super with
        | none => .ok [c.name]
        | some s => do
          let l ← runInit mro limit (superStart mro s) (kw.filter fun k => decide (k ∉ i.params))
          return c.name :: l

/-- `C(dumpidentifier, **kwargs)`: `object.__new__` refuses classes with abstract methods. -/
def create (limit : ℕ) (mro : List PyClass) (kw : List String) : Res (List String) :=
  if abstracts mro ≠ [] then .error .typeError else runInit mro limit mro kw

/-! ## The classes of postpic -/

/-- `FieldAnalyzer`. `_field_calc.py:34-384`. -/
def fieldAnalyzer : PyClass where
  name := "FieldAnalyzer"
  abstract := []
  methods := ["_createfieldfromdata", "createfieldfromkey", "getaxisobj", "_defaultaxisorder", "setgridtofield", "_Ex", "_Ey", "_Ez", "_Er",
    "_Etheta", "_Bx", "_By", "_Bz", "_Br", "_Btheta", "createfieldsfromkeys", "Ex", "Ey", "Ez", "Er", "Etheta", "Bx", "By", "Bz", "Br", "Btheta",
    "_kspace", "kspace_Ex", "kspace_Ey", "kspace_Ez", "kspace_Bx", "kspace_By", "kspace_Bz", "energydensityE", "energydensityM",
    "energydensityEM", "_divE1d", "_divE2d", "_divE3d", "divE"]
  init := some ⟨[], false, none⟩

/-- `Dumpreader_ifc`. `datareader.py:38-303`; `__init__` is `datareader.py:85-88`. (`with_metaclass` adds no class.) -/
def dumpreaderIfc : PyClass where
  name := "Dumpreader_ifc"
  abstract := ["keys", "__getitem__", "data", "gridoffset", "gridspacing", "timestep", "time", "simdimensions", "_keyE", "_keyB", "listSpecies",
    "getSpecies"]
  methods := ["gridpoints", "gridnode", "grid", "dataE", "gridkeyE", "dataB", "gridkeyB", "_simgridkeys", "simgridpoints", "simextent",
    "simgridspacing", "name", "__repr__", "__eq__"]
  init := some ⟨["name"], false, some (.named "Dumpreader_ifc")⟩

/-- The classes of `Dumpreader_ifc`. `datareader.py:38`. -/
def dumpBase : List PyClass := [dumpreaderIfc, fieldAnalyzer]

/-- `collections.abc.Sequence`, with its base classes taken together. -/
def pySequence : PyClass := ⟨"Sequence", ["__getitem__", "__len__"], ["__contains__", "__iter__", "__reversed__", "index", "count"], none⟩

/-- `Simulationreader_ifc`. `datareader.py:306-375`; `__init__` is `datareader.py:326-328`. -/
def simulationreaderIfc : PyClass where
  name := "Simulationreader_ifc"
  abstract := ["_getDumpreader", "__len__"]
  methods := ["__getitem__", "name", "__repr__", "times", "timesteps"]
  init := some ⟨["name"], false, none⟩

/-- The classes of `Simulationreader_ifc`. `datareader.py:306`. -/
def simBase : List PyClass := [simulationreaderIfc, pySequence]

/-- `Sdfreader`. `epochsdf.py:61-231`; `__init__` is `epochsdf.py:72-85`. -/
def sdfreader : PyClass where
  name := "Sdfreader"
  abstract := []
  methods := ["keys", "__getitem__", "dumpsize", "data", "gridoffset", "gridspacing", "gridpoints", "timestep", "time", "simdimensions", "_keyE",
    "_keyB", "simextent", "simgridpoints", "listSpecies", "getSpecies", "getderived", "__repr__"]
  init := some ⟨[], true, some .dynamic⟩

/-- `Visitreader`. `epochsdf.py:234-262`; `__init__` is `epochsdf.py:241-253`. -/
def visitreader : PyClass := ⟨"Visitreader", [], ["__len__", "_getDumpreader", "__repr__"], some ⟨["dumpreadercls"], true, some .dynamic⟩⟩

/-- `OpenPMDreader`. `openPMDh5.py:41-196`; `__init__` is `openPMDh5.py:56-67`. -/
def openPMDreader : PyClass where
  name := "OpenPMDreader"
  abstract := []
  methods := ["__del__", "keys", "__getitem__", "data", "gridoffset", "gridspacing", "gridpoints", "timestep", "time", "simdimensions", "_keyE",
    "_keyB", "_simgridkeys", "listSpecies", "getSpecies", "getderived", "__str__"]
  init := some ⟨["iteration"], true, some (.named "OpenPMDreader")⟩

/-- `FbpicReader`. `openPMDh5.py:199-340`; `__init__` is `openPMDh5.py:206-207`. -/
def fbpicReader : PyClass where
  name := "FbpicReader"
  abstract := []
  methods := ["modeexpansion", "_modeexpansion_naiv_single", "_modeexpansion_naiv", "_modeexpansion_fft", "gridoffset", "gridspacing",
    "gridpoints", "_defaultaxisorder", "data", "dataE", "dataB", "__str__"]
  init := some ⟨[], true, some (.named "FbpicReader")⟩

/-- `FileSeries`. `openPMDh5.py:343-368`; `__init__` is `openPMDh5.py:350-355`. -/
def fileSeries : PyClass :=
  ⟨"FileSeries", [], ["_getDumpreader", "__len__", "__str__"], some ⟨["dumpreadercls"], true, some (.named "FileSeries")⟩⟩

/-- `FbpicFileSeries`. `openPMDh5.py:371-375`. -/
def fbpicFileSeries : PyClass := ⟨"FbpicFileSeries", [], [], some ⟨[], true, some (.named "FbpicFileSeries")⟩⟩

/-- `SmileiReader`. `smileih5.py:85-361`; `__init__` is `smileih5.py:110-132`: it skips `OpenPMDreader.__init__`, on purpose. -/
def smileiReader : PyClass where
  name := "SmileiReader"
  abstract := []
  methods := ["_modeexpansion_naiv", "_listAMmodes", "_getExpanded", "data", "gridoffset", "gridspacing", "gridpoints", "_keyE", "_keyB",
    "_simgridkeys", "getSpecies", "getderived", "__str__"]
  init := some ⟨["iteration"], false, some (.named "OpenPMDreader")⟩

/-- `SmileiSeries`. `smileih5.py:364-404`; `__init__` is `smileih5.py:377-391`. -/
def smileiSeries : PyClass :=
  ⟨"SmileiSeries", [], ["_getDumpreader", "__len__", "__str__"], some ⟨["dumpreadercls"], true, some (.named "SmileiSeries")⟩⟩

/-- `Dummyreader`. `dummy.py:32-207`; `__init__` is `dummy.py:43-61`. -/
def dummyreader : PyClass where
  name := "Dummyreader"
  abstract := []
  methods := ["keys", "__getitem__", "__eq__", "timestep", "time", "simdimensions", "gridoffset", "gridspacing", "data", "_keyE", "_keyB",
    "simgridpoints", "simextent", "gridnode", "grid", "listSpecies", "getSpecies", "__str__"]
  init := some ⟨["dimensions", "randfunc", "seed"], true, some .dynamic⟩

/-- `Dummysim`. `dummy.py:210-229`; `__init__` is `dummy.py:212-214`. -/
def dummysim : PyClass := ⟨"Dummysim", [], ["__len__", "_getDumpreader", "__str__"], some ⟨["dimensions"], true, some .dynamic⟩⟩

/-- `Hdf5reader`, the reader for VSim. `vsimhdf5.py:40-146`; `__init__` is `vsimhdf5.py:46-58`. -/
def hdf5reader : PyClass where
  name := "Hdf5reader"
  abstract := []
  methods := ["keys", "__getitem__", "timestep", "time", "simdimensions", "dataE", "dataB", "grid", "listSpecies", "getSpecies", "getderived",
    "__str__"]
  init := some ⟨[], true, some .dynamic⟩

/-- `VSimReader`. `vsimhdf5.py:149-183`; `__init__` is `vsimhdf5.py:157-173`. -/
def vSimReader : PyClass := ⟨"VSimReader", [], ["__len__", "getDumpreader", "__str__"], some ⟨[], true, some .dynamic⟩⟩

/-- The classes with their base classes, in the order of the files: class statements in `openPMDh5.py:41,199,343,371`, `smileih5.py:85,364`,
`epochsdf.py:61,234`, `dummy.py:32,210`. -/
def openPMDMro : List PyClass := openPMDreader :: dumpBase
/-- `openPMDh5.py:199`. -/
def fbpicMro : List PyClass := fbpicReader :: openPMDMro
/-- `smileih5.py:85`. -/
def smileiMro : List PyClass := smileiReader :: openPMDMro
/-- `openPMDh5.py:343`. -/
def fileSeriesMro : List PyClass := fileSeries :: simBase
/-- `openPMDh5.py:371`. -/
def fbpicSeriesMro : List PyClass := fbpicFileSeries :: fileSeriesMro
/-- `smileih5.py:364`. -/
def smileiSeriesMro : List PyClass := smileiSeries :: simBase
/-- `epochsdf.py:61`. -/
def sdfMro : List PyClass := sdfreader :: dumpBase
/-- `epochsdf.py:234`. -/
def visitMro : List PyClass := visitreader :: simBase
/-- `dummy.py:32`. -/
def dummyMro : List PyClass := dummyreader :: dumpBase
/-- `dummy.py:210`. -/
def dummysimMro : List PyClass := dummysim :: simBase
/-- `vsimhdf5.py:40`. -/
def hdf5Mro : List PyClass := hdf5reader :: dumpBase
/-- `vsimhdf5.py:149`. -/
def vSimMro : List PyClass := vSimReader :: simBase

end Postpic.Classes
