import Mathlib.Data.List.Rotate
import Mathlib.Analysis.SpecialFunctions.Trigonometric.Basic
import Verif.Model.Constants
import Verif.Model.DumpSpecies

/-!
# Model of the data of the dummy reader

The particles and fields of `Dummyreader` and the dumps of `Dummysim`, `postpic/datareader/dummy.py`. The grid is in the model
`ReaderGrid`, the comparison of readers in the model `Series`.

The random numbers are drawn from the generator which numpy shares with the whole program. `S` are its states, `T` are the states of
everything else a function for random numbers could use.
-/

set_option autoImplicit false

namespace Postpic.Readers

open Postpic Postpic.Constants

noncomputable section

/-- The generator of random numbers of numpy: `np.random.seed` and `np.random.shuffle`. -/
structure Rng (S : Type) where
  seed : ℤ → S
  shuffle : List ℕ → S → List ℕ × S

/-- The argument `randfunc`: a function which gets the number of values. -/
abbrev RandFunc (S T : Type) := ℕ → S × T → List ℝ × (S × T)

/-- The attributes of a reader. `dummy.py:43-61`. -/
structure DummyData where
  dimensions : ℤ
  xdata : List ℝ
  ydata : Option (List ℝ)
  zdata : Option (List ℝ)
  pxdata : List ℝ
  pydata : List ℝ
  pzdata : List ℝ
  weights : List ℝ
  ids : List ℕ

/-- `np.roll(l, k)`: the entry at `i` is moved to `i + k`. -/
def roll (l : List ℝ) (k : ℕ) : List ℝ := l.rotate (l.length - k % l.length)

/-- `if seed is not None: np.random.seed(seed)`; numpy accepts numbers of 32 bits. `dummy.py:49-50`. -/
def dummySeed {S T : Type} (rng : Rng S) (seed : Option ℤ) (s : S × T) : Res (S × T) :=
  match seed with
  | none => .ok s
  | some k => if 0 ≤ k ∧ k < 2 ^ 32 then .ok (rng.seed k, s.2) else .error .valueError

/-- A coordinate which exists only in some dimensions. `dummy.py:52-55`. -/
def dummyDraw {S T : Type} (randfunc : RandFunc S T) (n : ℕ) (b : Bool) (s : S × T) : Option (List ℝ) × (S × T) :=
  if b then (some (randfunc n s).1, (randfunc n s).2) else (none, s)

/-- `Dummyreader(dumpid, dimensions, randfunc, seed)` with an integer `dumpid`: the reader and the state of the random numbers
afterwards. Functions for random numbers refuse a negative number of values. `dummy.py:43-61`. -/
def dummyInit {S T : Type} (rng : Rng S) (randfunc : RandFunc S T) (dumpid dimensions : ℤ) (seed : Option ℤ) (s : S × T) :
    Res (DummyData × (S × T)) := do
  let s ← dummySeed rng seed s
  if dumpid < 0 then throw .valueError
  let n := dumpid.toNat
  let x := randfunc n s
  let y := dummyDraw randfunc n (1 < dimensions) x.2
  let z := dummyDraw randfunc n (2 < dimensions) y.2
  let px := (roll x.1 1).map fun v => v ^ 2 * (me * c)
  let py := (roll x.1 2).map fun v => v * (me * c)
  let pz := (roll x.1 3).map fun v => v * (me * c)
  let ids := rng.shuffle (List.range x.1.length) z.2.1
  return (⟨dimensions, x.1, y.1, z.1, px, py, pz, List.replicate x.1.length 1, ids.1⟩, (ids.2, z.2.2))

/-- An attribute which was not set. -/
def orAttributeError {α : Type} : Option α → Res α
  | some a => .ok a
  | none => .error .attributeError

/-- `getSpecies(species, attrib)`. `dummy.py:180-201`. -/
def dummyGetSpecies (d : DummyData) (_species : String) (attrib : AxisKey) : Res (List ℝ) := do
  let attribid ← attribidentify attrib
  if attribid = 0 then return d.xdata
  else if attribid = 1 ∧ d.dimensions > 1 then orAttributeError d.ydata
  else if attribid = 2 ∧ d.dimensions > 2 then orAttributeError d.zdata
  else if attribid = 3 then return d.pxdata
  else if attribid = 4 then return d.pydata
  else if attribid = 5 then return d.pzdata
  else if attribid = 9 then return d.weights
  else if attribid = 10 then return d.ids.map fun i : ℕ => (i : ℝ)
  else throw .keyError

/-- `timestep()`. `dummy.py:76-77`. -/
def dummyTimestep (dumpid : ℤ) : ℤ := dumpid

/-- `time()`. `dummy.py:79-80`. -/
def dummyTime (dumpid : ℤ) : ℝ := dummyTimestep dumpid * 1e-10

/-- `_Ex`. `dummy.py:94-98`. -/
def dummyEx (t x y z : ℝ) : ℝ := Real.sin (Real.pi * t * Real.sqrt (x ^ 2 + y ^ 2 + z ^ 2)) / Real.sqrt (x ^ 2 + y ^ 2 + z ^ 2 + 1e-9)

/-- `_Ey`. `dummy.py:100-104`. -/
def dummyEy (t x y z : ℝ) : ℝ := Real.sin (Real.pi * t * x) + Real.sin (Real.pi * (t - 1) * y) + Real.sin (Real.pi * (t - 2) * z)

/-- `_Ez`. `dummy.py:106-108`. -/
def dummyEz (_t x y z : ℝ) : ℝ := x ^ 2 + y ^ 2 + z ^ 2

/-- `fkts[axid]`. `dummy.py:109-111`. -/
def dummyFkt : ℕ → Res (ℝ → ℝ → ℝ → ℝ → ℝ)
  | 0 => .ok dummyEx
  | 1 => .ok dummyEy
  | 2 => .ok dummyEz
  | _ => .error .keyError

/-- `data(axis)`. Other dimensions leave `ret` undefined. `dummy.py:91-122`. -/
def dummyField (dumpid : ℤ) (dims : ℕ) (axis : AxisKey) : Res (Arr ℝ) := do
  let axid ← axesidentify axis
  let t : ℝ := dummyTimestep dumpid
  if dims = 1 then
    let f ← dummyFkt axid
    let gx ← dummyGrid (K := ℝ) dims (.str "x")
    return ⟨[gx.length], fun i => f t (gx.getD (i.getD 0 0) 0) 0 0⟩
  else if dims = 2 then
    let gx ← dummyGrid (K := ℝ) dims (.str "x")
    let gy ← dummyGrid (K := ℝ) dims (.str "y")
    let f ← dummyFkt axid
    return ⟨[gx.length, gy.length], fun i => f t (gx.getD (i.getD 0 0) 0) (gy.getD (i.getD 1 0) 0) 0⟩
  else if dims = 3 then
    let gx ← dummyGrid (K := ℝ) dims (.str "x")
    let gy ← dummyGrid (K := ℝ) dims (.str "y")
    let gz ← dummyGrid (K := ℝ) dims (.str "z")
    let f ← dummyFkt axid
    return ⟨[gx.length, gy.length, gz.length],
      fun i => f t (gx.getD (i.getD 0 0) 0) (gy.getD (i.getD 1 0) 0) (gz.getD (i.getD 2 0) 0)⟩
  else throw .nameError

/-- `Dummysim._getDumpreader(index)`: function and seed are the defaults. `dummy.py:219-223`. -/
def dummySimDump {S T : Type} (rng : Rng S) (normal : RandFunc S T) (len : ℕ) (dimensions index : ℤ) (s : S × T) :
    Res (DummyData × (S × T)) :=
  if index < len then dummyInit rng normal index dimensions (some 0) s else .error .indexError

end

end Postpic.Readers
