import Mathlib.Algebra.Order.Floor.Ring
import Mathlib.Data.Rat.Cast.Defs
import Verif.Model.Particles
import Verif.Model.ReaderGrid
import Verif.Model.Species

/-!
# Model of the particle data in the dumps

`getSpecies` of `postpic/datareader/openPMDh5.py`, `smileih5.py` and `epochsdf.py`, and the source of a property in
`postpic/particles/particles.py:125-147`. The content of the files is given; reading them is not modelled. Floating point numbers
are elements of a field and products are exact, but the conversion of integers to floating point numbers is the one of binary64.
-/

set_option autoImplicit false

namespace Postpic.Readers

open Postpic Postpic.Particles Postpic.Species

variable {K : Type} [_root_.Field K] [LinearOrder K]

/-- `helper.attribidentify`. `helper.py:87-94`. -/
def attribidentify : AxisKey → Res ℕ
  | .str "PX" => .ok 3 | .str "Px" => .ok 3 | .str "px" => .ok 3 | .int 3 => .ok 3
  | .str "PY" => .ok 4 | .str "Py" => .ok 4 | .str "py" => .ok 4 | .int 4 => .ok 4
  | .str "PZ" => .ok 5 | .str "Pz" => .ok 5 | .str "pz" => .ok 5 | .int 9 => .ok 9
  | .str "weight" => .ok 9 | .str "w" => .ok 9 | .int 10 => .ok 10
  | .str "id" => .ok 10 | .str "ID" => .ok 10
  | .str "mass" => .ok 11 | .str "m" => .ok 11 | .str "Mass" => .ok 11
  | .str "charge" => .ok 12 | .str "c" => .ok 12 | .str "Charge" => .ok 12 | .str "q" => .ok 12
  | k => axesidentify k

/-- `np.float64(n)`: the nearest number with 53 binary digits, the even one of two (`2^e` is the distance of the candidates). -/
def float64 (n : ℤ) : ℤ :=
  let m := n.natAbs
  let e := Nat.log2 m - 52
  let q := m / 2 ^ e
  let r := m % 2 ^ e
  let q' := if 2 ^ e < 2 * r ∨ (2 * r = 2 ^ e ∧ q % 2 = 1) then q + 1 else q
  n.sign * (q' * 2 ^ e : ℕ)

/-- The data of a dataset: integers or floating point numbers. -/
inductive Nums (K : Type) where
  | ints (l : List ℤ)
  | floats (l : List K)
  deriving DecidableEq

/-- `np.float64(data)`. -/
def Nums.toFloats : Nums K → List K
  | .ints l => l.map fun n => (float64 n : K)
  | .floats l => l

/-! ### openPMD and Smilei -/

/-- The content of a record component: constant components have the attribute `value` and no data. -/
inductive Content (K : Type) where
  | const (v : K)
  | array (d : Nums K)
  deriving DecidableEq

/-- A record component of particles with its attributes. `macroWeighted` and `weightingPower` are those of the extension ED-PIC of
openPMD, which the code does not look at. -/
structure Component (K : Type) where
  content : Content K
  unitSI : Option K
  macroWeighted : Bool
  weightingPower : ℕ
  deriving DecidableEq

/-- The components of a file by their paths. -/
abbrev H5File (K : Type) := String → Option (Component K)

/-- `data(key)`. The keys of particles are never those of azimuthal modes. `openPMDh5.py:82-96`, `smileih5.py:234-262`. -/
def h5Data (f : H5File K) (key : String) : Res (Entry K) := do
  let r ← orKeyError (f key)
  let u ← orKeyError r.unitSI
  match r.content with
  | .const v => return .scalar (v * u)
  | .array d => return .array (d.toFloats.map (· * u))

/-- `data += offset`; an array keeps its length. -/
def addInPlace : Entry K → Entry K → Res (Entry K)
  | .scalar a, .scalar b => .ok (.scalar (a + b))
  | .scalar a, .array l => .ok (.array (l.map (a + ·)))
  | .array l, .scalar b => .ok (.array (l.map (· + b)))
  | .array l, .array [b] => .ok (.array (l.map (· + b)))
  | .array l, .array m => if l.length = m.length then .ok (.array (l.zipWith (· + ·) m)) else .error .valueError

/-- `options`; the path of the weights is different for openPMD and Smilei. `openPMDh5.py:160-169`, `smileih5.py:325-334`. -/
def h5Path (weights species : String) : ℕ → Option String
  | 9 => some ("particles/" ++ species ++ "/" ++ weights)
  | 0 => some ("particles/" ++ species ++ "/position/x")
  | 1 => some ("particles/" ++ species ++ "/position/y")
  | 2 => some ("particles/" ++ species ++ "/position/z")
  | 3 => some ("particles/" ++ species ++ "/momentum/x")
  | 4 => some ("particles/" ++ species ++ "/momentum/y")
  | 5 => some ("particles/" ++ species ++ "/momentum/z")
  | 10 => some ("particles/" ++ species ++ "/id")
  | 11 => some ("particles/" ++ species ++ "/mass")
  | 12 => some ("particles/" ++ species ++ "/charge")
  | _ => none

/-- `optionsoffset`. `openPMDh5.py:170-172`, `smileih5.py:335-337`. -/
def h5Offset (species : String) : ℕ → Option String
  | 0 => some ("particles/" ++ species ++ "/positionOffset/x")
  | 1 => some ("particles/" ++ species ++ "/positionOffset/y")
  | 2 => some ("particles/" ++ species ++ "/positionOffset/z")
  | _ => none

/-- `getSpecies`. `openPMDh5.py:154-182`, `smileih5.py:319-347`. -/
def h5GetSpecies (weights : String) (f : H5File K) (species : String) (attrib : AxisKey) : Res (Entry K) := do
  let attribid ← attribidentify attrib
  let key ← orKeyError (h5Path weights species attribid)
  let data ← h5Data f key
  match h5Offset species attribid with
  | none => return data
  | some k => addInPlace data (← h5Data f k)

/-- `OpenPMDreader.getSpecies`. `openPMDh5.py:154-182`. -/
def pmdGetSpecies (f : H5File K) (species : String) (attrib : AxisKey) : Res (Entry K) :=
  h5GetSpecies "weighting" f species attrib

/-- `SmileiReader.getSpecies`. `smileih5.py:319-347`. -/
def smileiGetSpecies (f : H5File K) (species : String) (attrib : AxisKey) : Res (Entry K) :=
  h5GetSpecies "weight" f species attrib

/-! ### EPOCH -/

/-- The blocks of an sdf file which belong to particles: one data set, or one per dimension (`Grid/Particles/...`). -/
structure SdfFile (K : Type) where
  data : String → Option (Entry K)
  positions : String → Option (List (List K))

/-- `Sdfreader.getSpecies`. A dimension which is not there raises an IndexError, which becomes a KeyError. `epochsdf.py:195-216`. -/
def sdfGetSpecies (f : SdfFile K) (species : String) (attrib : AxisKey) : Res (Entry K) := do
  let attribid ← attribidentify attrib
  let position (i : ℕ) : Res (Entry K) := do
    let l ← orKeyError (f.positions ("Grid/Particles/" ++ species))
    let x ← orKeyError l[i]?
    return .array x
  match attribid with
  | 9 => orKeyError (f.data ("Particles/Weight/" ++ species))
  | 0 => position 0
  | 1 => position 1
  | 2 => position 2
  | 3 => orKeyError (f.data ("Particles/Px/" ++ species))
  | 4 => orKeyError (f.data ("Particles/Py/" ++ species))
  | 5 => orKeyError (f.data ("Particles/Pz/" ++ species))
  | 10 => orKeyError (f.data ("Particles/ID/" ++ species))
  | 11 => orKeyError (f.data ("Particles/Mass/" ++ species))
  | 12 => orKeyError (f.data ("Particles/Charge/" ++ species))
  | _ => throw .keyError

/-! ### The property of a species -/

/-- The names of the properties. `particles.py:75`. -/
def keyName : Key → String
  | .weight => "weight" | .x => "x" | .y => "y" | .z => "z" | .px => "px" | .py => "py" | .pz => "pz"
  | .mass => "mass" | .charge => "charge" | .id => "id" | .time => "time"

/-- `np.int64(x)`: towards zero. -/
def truncate [FloorRing K] (x : K) : K := if 0 ≤ x then (⌊x⌋ : K) else (⌈x⌉ : K)

/-- `np.float64(self._idfy[key])`; the dictionary has multiples of `unit`. `particles.py:144-145`. -/
def deduced (unit : K) (d : Res Dict) (key : String) : Res (Entry K) := do
  match (← d) key with
  | some (.num q) => return .scalar (q * unit)
  | some (.bool b) => return .scalar (if b then 1 else 0)
  | some (.str _) => throw .valueError
  | none => throw .keyError

/-- The data of a property before filters are applied: from the dump, or mass and charge from the name of the species (`me` and `qe`
are the mass and the charge of an electron). `particles.py:133-148`. -/
def readProperty [FloorRing K] (get : AxisKey → Res (Entry K)) (time : Res K) (me qe : K) (identified : Res Dict) (k : Key) :
    Res (Entry K) :=
  match k with
  | .time => do return .scalar (← time)
  | .mass => match get (.str "mass") with
    | .error .keyError => deduced me identified "mass"
    | r => r
  | .charge => match get (.str "charge") with
    | .error .keyError => deduced qe identified "charge"
    | r => r
  | .id => match get (.str "id") with
    | .ok (.scalar v) => .ok (.scalar (truncate v))
    | .ok (.array l) => .ok (.array (l.map truncate))
    | .error e => .error e
  | k => get (.str (keyName k))

end Postpic.Readers
