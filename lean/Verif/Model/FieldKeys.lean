import Verif.Model.Modes
import Verif.Model.ReaderGrid
import Verif.Model.Series

/-!
# Model of how readers find fields, derived fields and species

`dataE`, `dataB`, `_keyE`, `_keyB`, `data`, `getderived`, `listSpecies` and `simdimensions` of the readers in `postpic/datareader`.
-/

set_option autoImplicit false

namespace Postpic.Readers

open Postpic Postpic.Fields

/-! ## Components of the fields -/

/-- The electric or the magnetic field. -/
inductive EB where
  | E
  | B
  deriving DecidableEq

/-- The letter of a component in hdf5 files. `openPMDh5.py:139, 143`, `smileih5.py:305, 310`. -/
def h5Letter (component : AxisKey) : Res String := do
  match ← axesidentify component with
  | 0 => .ok "x"
  | 1 => .ok "y"
  | 2 => .ok "z"
  | 90 => .ok "r"
  | 91 => .ok "t"
  | _ => .error .keyError

/-- `_keyE` and `_keyB`. `openPMDh5.py:138-144`. -/
def pmdKey (f : EB) (component : AxisKey) : Res String := do
  let l ← h5Letter component
  match f with
  | .E => .ok ("fields/E/" ++ l)
  | .B => .ok ("fields/B/" ++ l)

/-- `_keyE` and `_keyB`. `smileih5.py:303-311`. -/
def smileiKey (f : EB) (component : AxisKey) : Res String := do
  let l ← h5Letter component
  match f with
  | .E => .ok ("E" ++ l)
  | .B => .ok ("B" ++ l)

/-- `_keyE` and `_keyB`. `epochsdf.py:150-162`. -/
def epochKey (f : EB) (component : AxisKey) (average : Bool) : Res String :=
  match f with
  | .E => epochKeyE component average
  | .B => epochKeyB component average

/-- A record of a hdf5 file: an array or, if there is an attribute `value`, a constant; with the attribute `unitSI`. -/
inductive H5Record (K : Type) where
  | array (a : Arr K) (unitSI : K)
  | constant (v : K) (unitSI : K)

/-- `data(key)`; a constant becomes a number, which is an array without axes. `openPMDh5.py:82-96`, `smileih5.py:255-264`. -/
def h5Value {K : Type} [Mul K] (d : String → Option (H5Record K)) (key : String) : Res (Arr K) := do
  match ← orKeyError (d key) with
  | .array a u => .ok ⟨a.shape, fun i => a.at' i * u⟩
  | .constant v u => .ok ⟨[], fun _ => v * u⟩

/-- `dataE(component)` and `dataB(component)` of `OpenPMDreader`. `datareader.py:198-199, 204-205`. -/
def pmdComponent {K : Type} [Mul K] (d : String → Option (H5Record K)) (f : EB) (component : AxisKey) : Res (Arr K) := do
  h5Value d (← pmdKey f component)

/-- `dataE(component, average=...)` and `dataB` of `Sdfreader`; `d` is the data of each key. `epochsdf.py:104-105`,
`datareader.py:198-199, 204-205`. -/
def epochComponent {K : Type} (d : String → Option (Arr K)) (f : EB) (component : AxisKey) (average : Bool) : Res (Arr K) := do
  orKeyError (d (← epochKey f component average))

/-- `dataE(component, theta, Ntheta)` and `dataB` of `FbpicReader`. The name `Ntheta` in `dataB` is not defined.
`openPMDh5.py:324-336`. -/
noncomputable def fbpicComponent (junk : ℕ → ℕ → ℕ → ℂ) (d : String → Option (H5Record ℝ)) (f : EB) (component : AxisKey)
    (thetas : Option (List ℝ)) (ntheta : Option ℤ) : Res (Arr ℝ) := do
  let key ← pmdKey f component
  match f with
  | .E => do
    let raw ← h5Value d key
    fbpicExpansion junk raw thetas ntheta
  | .B => .error .nameError

/-- `data(key, theta)` of `SmileiReader`; a field given by modes is expanded. `smileih5.py:234-264`. -/
noncomputable def smileiData (names : ModeNames) (modes : String → ℕ → Option (Arr ℝ)) (unit : String → ℝ)
    (d : String → Option (H5Record ℝ)) (key : String) (thetas : List ℝ) : Res (Arr ℝ) :=
  if key ∈ (listAMmodes names).1 then smileiExpanded names modes unit key thetas else h5Value d key

/-- `dataE(component, theta=...)` and `dataB` of `SmileiReader`: the arguments are handed to `_keyE`, which ignores them, and not to
`data`, which uses `theta=0`. `datareader.py:198-199, 204-205`, `smileih5.py:303-311`. -/
noncomputable def smileiComponent (names : ModeNames) (modes : String → ℕ → Option (Arr ℝ)) (unit : String → ℝ)
    (d : String → Option (H5Record ℝ)) (f : EB) (component : AxisKey) (_thetas : Option (List ℝ)) : Res (Arr ℝ) := do
  smileiData names modes unit d (← smileiKey f component) [0]

/-! ## Lists of fields and species -/

/-- The characters which follow a prefix. -/
def stripPrefix (pre key : List Char) : Option (List Char) := if pre.isPrefixOf key then some (key.drop pre.length) else none

/-- `re.match(r'Derived/[\w/ ]*', key).group(0)`; `word` are the characters `\w`. `epochsdf.py:224-226`. -/
def derivedMatch (word : Char → Bool) (key : List Char) : Option (List Char) :=
  (stripPrefix "Derived/".toList key).map fun r => "Derived/".toList ++ r.takeWhile fun c => word c || c == '/' || c == ' '

/-- `getderived` of `Sdfreader`. `epochsdf.py:218-228`. -/
def epochDerived (word : Char → Bool) (keys : List (List Char)) : List (List Char) := sortNames (keys.filterMap (derivedMatch word))

/-- `[\w-]`. -/
def nameChar (word : Char → Bool) (c : Char) : Bool := word c || c == '-'

/-- The optional part `(/[\w-]+)?`. -/
def subName (word : Char → Bool) : List Char → List Char
  | '/' :: r => if r.takeWhile (nameChar word) = [] then [] else '/' :: r.takeWhile (nameChar word)
  | _ => []

/-- `([\w-]+(/[\w-]+)?)` at the beginning of the text. -/
def speciesName (word : Char → Bool) (s : List Char) : Option (List Char) :=
  if s.takeWhile (nameChar word) = [] then none
  else some (s.takeWhile (nameChar word) ++ subName word (s.dropWhile (nameChar word)))

/-- `re.match(r'Particles/\w+/([\w-]+(/[\w-]+)?)', key).group(1)`. As `/` is not in `\w` there is only one way to match.
`epochsdf.py:188-190`. -/
def speciesMatch (word : Char → Bool) (key : List Char) : Option (List Char) := do
  let r ← stripPrefix "Particles/".toList key
  if r.takeWhile word = [] then none
  else match r.dropWhile word with
    | '/' :: s => speciesName word s
    | _ => none

/-- `listSpecies` of `Sdfreader`. `epochsdf.py:185-193`. -/
def epochSpecies (word : Char → Bool) (keys : List (List Char)) : List (List Char) :=
  sortNames (keys.filterMap (speciesMatch word)).dedup

/-- `getderived` of `OpenPMDreader`; `visited` are the names below `fields` and whether each is a dataset. Datasets have an attribute
`value` in h5py before version 3 only. `openPMDh5.py:184-193`. -/
def pmdDerived (h5py3 : Bool) (visited : List (List Char × Bool)) : List (List Char) :=
  sortNames ((visited.filter fun r => !("E".toList.isPrefixOf r.1 || "B".toList.isPrefixOf r.1) && (r.2 && !h5py3)).map
    fun r => "fields/".toList ++ r.1)

/-- `getderived` of `SmileiReader`; `visited` are all names of the iteration, groups and datasets, as in `pmdDerived`. The reader does not drop
any of them. `smileih5.py:349-357`. -/
def smileiDerived (visited : List (List Char × Bool)) : List (List Char) := sortNames (visited.map (·.1))

/-- `listSpecies` of `OpenPMDreader`; `none` if the dump has no group `particles`. h5py lists names in their order.
`openPMDh5.py:150-152`. -/
def pmdSpecies : Option (List (List Char)) → Res (List (List Char))
  | none => .error .keyError
  | some names => .ok (sortNames names)

/-! ## The number of dimensions -/

/-- `len(self.gridspacing(key, None))`: `None` stands for all axes, the attribute is taken as an array. `openPMDh5.py:106-112`. -/
def spacingLength {K : Type} (d : PmdDump K) (key : String) : Res ℕ := do
  let r ← orKeyError (d key)
  let l ← orKeyError r.gridAttrs.spacing
  let _ ← orKeyError r.gridAttrs.unit
  return l.length

/-- `simdimensions`. `openPMDh5.py:126-136`. -/
def pmdSimdimensions {K : Type} (d : PmdDump K) : Res ℕ := firstKey (spacingLength d) pmdSimgridkeys

/-- `simdimensions` of `FbpicReader`: `gridspacing(k, None)` looks for `slice(None)` in a table, which raises a KeyError (a TypeError before
python 3.12, here simplified) for every key. `openPMDh5.py:299-306`. -/
def fbpicSimdimensions : Res ℕ := firstKey (fun _ => .error .keyError) pmdSimgridkeys

/-- `simdimensions` of `Sdfreader`: `re.match(r'Epoch(\d)d', code_name)`; `None` has no attribute `group`. `epochsdf.py:147-148`. -/
def epochSimdimensions (codeName : List Char) : Res ℕ :=
  match stripPrefix "Epoch".toList codeName with
  | some (c :: 'd' :: _) => if c.isDigit then .ok (c.toNat - 48) else .error .attributeError
  | _ => .error .attributeError

end Postpic.Readers
