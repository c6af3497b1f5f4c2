import Verif.Model.KspaceExtent

/-!
# Model of the reconstruction of waves from a dump

The methods `kspace_Ex` ... `kspace_Bz` of `FieldAnalyzer`, `postpic/_field_calc.py:226-305`.
-/

set_option autoImplicit false

namespace Postpic.Fields

open Postpic Postpic.Axes

noncomputable section

/-- What a dump contributes: its name, time and time step, the spacing of the grid of the simulation and the methods `Ex()` ...
`Bz()` (`true` for the electric field), see `Model/FieldCalc.lean`. -/
structure KspaceDump where
  name : String
  time : ℝ
  timestep : ℕ
  simdimensions : ℕ
  simgridspacing : ℕ → Res ℝ
  field : Bool → Fin 3 → Res (Field ℝ ℂ)

/-- `self.name.lower().endswith('.sdf')`. Only ASCII letters have one of these letters as lower case letter. -/
def endsSdf (name : String) : Bool := ".sdf".toList.isSuffixOf (name.toList.map Char.toLower)

/-- `if condition: fields[key] = method()`. -/
def addField (condition : Bool) (key : String) (method : Res (Field ℝ ℂ)) (fields : List (String × Field ℝ ℂ)) :
    Res (List (String × Field ℝ ℂ)) :=
  if condition then do
    let f ← method
    return fields ++ [(key, f)]
  else return fields

/-- The component and the dictionary which `kspace_Ex` ... `kspace_Bz` pass to `_kspace`. `_field_calc.py:251-305`. -/
def KspaceDump.fields (d : KspaceDump) (electric : Bool) (p : Fin 3) : Res (String × List (String × Field ℝ ℂ)) :=
  match electric, p with
  | true, 0 => do
    let main ← d.field true 0
    let l ← addField (decide (2 ≤ main.dims)) "Bz" (d.field false 2) [("Ex", main)]
    let m ← addField (decide (3 ≤ main.dims)) "By" (d.field false 1) l
    return ("Ex", m)
  | true, 1 => do
    let main ← d.field true 1
    let l ← addField true "Bz" (d.field false 2) [("Ey", main)]
    let m ← addField (decide (3 ≤ main.dims)) "Bx" (d.field false 0) l
    return ("Ey", m)
  | true, 2 => do
    let main ← d.field true 2
    let l ← addField true "By" (d.field false 1) [("Ez", main)]
    let m ← addField (decide (2 ≤ main.dims)) "Bx" (d.field false 0) l
    return ("Ez", m)
  | false, 0 => do
    let main ← d.field false 0
    let l ← addField (decide (2 ≤ main.dims)) "Ez" (d.field true 2) [("Bx", main)]
    let m ← addField (decide (3 ≤ main.dims)) "Ey" (d.field true 1) l
    return ("Bx", m)
  | false, 1 => do
    let main ← d.field false 1
    let l ← addField true "Ez" (d.field true 2) [("By", main)]
    let m ← addField (decide (3 ≤ main.dims)) "Ex" (d.field true 0) l
    return ("By", m)
  | false, 2 => do
    let main ← d.field false 2
    let l ← addField true "Ey" (d.field true 1) [("Bz", main)]
    let m ← addField (decide (2 ≤ main.dims)) "Ex" (d.field true 0) l
    return ("Bz", m)

/-- The keyword arguments `alignment`, `solver`, `omega_func` and `extent`. The remaining one of `kspace`, `interpolation`, is always a
TypeError (it is passed twice, or not known) and is not modelled. -/
structure KspaceKw where
  alignment : String := "auto"
  solver : Option String := none
  omega : Option (List ℝ → Option ℝ) := none
  extent : Option (List ℝ) := none

/-- `alignment` after `auto` is replaced. `_field_calc.py:227-234`. -/
def KspaceDump.alignment (d : KspaceDump) (kw : KspaceKw) : Res String :=
  if kw.alignment ∈ ["auto", "default", "epoch", "epoch-final"] then
    .ok (if kw.alignment = "auto" then (if endsSdf d.name then "epoch" else "default") else kw.alignment)
  else .error .valueError

/-- `dt = self.time()/self.timestep()`: the quotient is `nan` for the time step 0, and then also the result. This is reported as
`undefinedBehaviour`. `_field_calc.py:240`. -/
def KspaceDump.dt (d : KspaceDump) : Res ℝ :=
  if d.timestep = 0 then .error .undefinedBehaviour else .ok (d.time / d.timestep)

/-- `kwargs['omega_func']` or the default. `_field_calc.py:241-243`. -/
def KspaceDump.omega (d : KspaceDump) (kw : KspaceKw) (dt : ℝ) : Res (List ℝ → Option ℝ) :=
  match kw.omega with
  | some w => .ok w
  | none =>
    if kw.solver = some "yee" then do
      let dx ← (List.range d.simdimensions).mapM d.simgridspacing
      return omegaYee dx dt
    else .ok omegaFree

/-- `_kspace` and the methods `kspace_Ex(**kwargs)` ... `kspace_Bz(**kwargs)`. `_field_calc.py:226-305`. -/
def KspaceDump.kspace (spl : Splines ℝ) (lin : Field ℝ ℂ → List ℝ → Res (Field ℝ ℂ)) (d : KspaceDump)
    (electric : Bool) (p : Fin 3) (kw : KspaceKw) : Res (Field ℝ ℂ) := do
  let (component, fields) ← d.fields electric p
  let alignment ← d.alignment kw
  if alignment = "default" then do
    let (r, _) ← kspaceIn spl lin component fields kw.extent .fourier (kw.omega.getD omegaFree)
    return r
  else do
    let dt ← d.dt
    let omega ← d.omega kw dt
    let (r, _) ← kspaceEpochLikeIn spl lin component fields dt kw.extent omega (if alignment = "epoch" then "B" else "E")
    return r

end

end Postpic.Fields
