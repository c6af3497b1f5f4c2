import Verif.Model.Calculus
import Verif.Model.ReaderGrid

/-!
# Model of the quantities computed from the fields of a dump

`FieldAnalyzer` of `postpic/_field_calc.py`: the components, energy densities and the divergence. The
keyword arguments (which are handed to the reader) are not modelled.
-/

set_option autoImplicit false

namespace Postpic.Readers

open Postpic Postpic.Axes Postpic.Fields

/-- The methods of a dump reader which are used: data and grid keys of the components, nodes of the
grids, order of the axes and `simdimensions()`. -/
structure EMDump (K : Type) where
  dataE : String → Res (Arr K)
  dataB : String → Res (Arr K)
  gridkeyE : String → Res String
  gridkeyB : String → Res String
  node : String → AxisKey → Res (List K)
  order : AxisKey × AxisKey × AxisKey
  simdims : ℤ

/-- A field with unit; the name is part of `ReadField`. -/
structure Quantity (K : Type) where
  field : ReadField K K
  unit : String

variable {K : Type} [_root_.Field K] [LinearOrder K]

/-- `_createfieldfromdata`, `ret.unit = ...`, `ret.name = ...`. -/
def EMDump.quantity (spl : Splines K) (twoPi : K) (d : EMDump K) (data : Arr K) (name unit key : String) :
    Res (Quantity K) := do
  return ⟨← createField spl twoPi d.node d.order data name key {}, unit⟩

/-- `Ex`, `Ey`, `Ez`, `Er`, `Etheta`. `_field_calc.py:144-182`. -/
def EMDump.fieldE (spl : Splines K) (twoPi : K) (d : EMDump K) (c : String) : Res (Quantity K) := do
  let data ← d.dataE c
  let key ← d.gridkeyE c
  d.quantity spl twoPi data ("E" ++ c) "V/m" key

/-- The unit given to the components of B. `_field_calc.py:187, 195, 203, 211, 219`. -/
def unitB (c : String) : String := if c = "r" ∨ c = "theta" then "V/m" else "T"

/-- `Bx`, `By`, `Bz`, `Br`, `Btheta`. `_field_calc.py:184-222`. -/
def EMDump.fieldB (spl : Splines K) (twoPi : K) (d : EMDump K) (c : String) : Res (Quantity K) := do
  let data ← d.dataB c
  let key ← d.gridkeyB c
  d.quantity spl twoPi data ("B" ++ c) (unitB c) key

/-- `a ** 2`. -/
def Arr.sq (a : Arr K) : Arr K := ⟨a.shape, fun idx => a.at' idx ^ 2⟩

/-- `c * a`. -/
def Arr.scale (c : K) (a : Arr K) : Arr K := ⟨a.shape, fun idx => c * a.at' idx⟩

/-- `a ** 2 + b ** 2 + c ** 2`. -/
def sumSquares (a b c : Arr K) : Res (Arr K) := do
  let s ← Arr.binary (· + ·) (Arr.sq a) (Arr.sq b)
  Arr.binary (· + ·) s (Arr.sq c)

/-- `0.5 * epsilon0 * (Ex ** 2 + Ey ** 2 + Ez ** 2)`. `_field_calc.py:308-311`. -/
def EMDump.dataEnergyE (eps0 : K) (d : EMDump K) : Res (Arr K) := do
  let ex ← d.dataE "x"
  let ey ← d.dataE "y"
  let ez ← d.dataE "z"
  return Arr.scale (1 / 2 * eps0) (← sumSquares ex ey ez)

/-- `0.5 / mu0 * (Bx ** 2 + By ** 2 + Bz ** 2)`. `_field_calc.py:319-322`. -/
def EMDump.dataEnergyM (mu0 : K) (d : EMDump K) : Res (Arr K) := do
  let bx ← d.dataB "x"
  let by' ← d.dataB "y"
  let bz ← d.dataB "z"
  return Arr.scale (1 / 2 / mu0) (← sumSquares bx by' bz)

/-- `energydensityE`. `_field_calc.py:307-316`. -/
def EMDump.energydensityE (spl : Splines K) (twoPi eps0 : K) (d : EMDump K) : Res (Quantity K) := do
  let data ← d.dataEnergyE eps0
  let key ← d.gridkeyE "x"
  d.quantity spl twoPi data "Energy Density Electric-Field" "J/m^3" key

/-- `energydensityM`. `_field_calc.py:318-327`. -/
def EMDump.energydensityM (spl : Splines K) (twoPi mu0 : K) (d : EMDump K) : Res (Quantity K) := do
  let data ← d.dataEnergyM mu0
  let key ← d.gridkeyB "x"
  d.quantity spl twoPi data "Energy Density Magnetic-Field" "J/m^3" key

/-- `energydensityEM`. `_field_calc.py:329-342`. -/
def EMDump.energydensityEM (spl : Splines K) (twoPi eps0 mu0 : K) (d : EMDump K) : Res (Quantity K) := do
  let e ← d.dataEnergyE eps0
  let m ← d.dataEnergyM mu0
  let data ← Arr.binary (· + ·) e m
  let key ← d.gridkeyE "x"
  d.quantity spl twoPi data "Energy Density EM-Field" "J/m^3" key

/-- `_divE1d`, `_divE2d`, `_divE3d` (numpy 1.11 and later), chosen by the number of dimensions of the
simulation. In one dimension the data must have one dimension (otherwise `np.gradient` returns a list of
arrays; not modelled). `_field_calc.py:344-367, 374-378`. -/
def EMDump.dataDivE (d : EMDump K) : Res (Arr K) :=
  match d.simdims with
  | 1 => do
    let ex ← d.dataE "x"
    if ex.shape.length ≠ 1 then throw .valueError
    Arr.gradientUnit K ex 0
  | 2 => do
    let gx ← Arr.gradientUnit K (← d.dataE "x") 0
    let gy ← Arr.gradientUnit K (← d.dataE "y") 1
    Arr.binary (· + ·) gx gy
  | 3 => do
    let gx ← Arr.gradientUnit K (← d.dataE "x") 0
    let gy ← Arr.gradientUnit K (← d.dataE "y") 1
    let gz ← Arr.gradientUnit K (← d.dataE "z") 2
    Arr.binary (· + ·) (← Arr.binary (· + ·) gx gy) gz
  | _ => .error .keyError

/-- `divE`. `_field_calc.py:369-384`. -/
def EMDump.divE (spl : Splines K) (twoPi : K) (d : EMDump K) : Res (Quantity K) := do
  let data ← d.dataDivE
  let key ← d.gridkeyE "x"
  d.quantity spl twoPi data "div E" "V/m^2" key

end Postpic.Readers
