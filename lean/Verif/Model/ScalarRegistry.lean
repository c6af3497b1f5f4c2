import Mathlib.Data.Nat.Notation
import Verif.Py.Err

/-!
# Model of the registry of particle scalars

`postpic/particles/scalarproperties.py:33-155`. The dictionary `_mapping` is the list of its items
in insertion order.
-/

set_option autoImplicit false

namespace Postpic.Scalars

open Postpic

/-- `ScalarProperty(expr, name, unit, symbol)`. `scalarproperties.py:37-51`. -/
structure SP where
  expr : String
  name : Option String
  unit : Option String
  symbol' : Option String
  deriving DecidableEq, Repr

/-- `ScalarProperty.symbol`. `scalarproperties.py:65-67`. -/
def SP.symbol (sp : SP) : Option String :=
  match sp.symbol' with
  | none => sp.name
  | some s => some s

/-- `ScalarPropertyContext._mapping`. -/
abbrev Registry := List (String × SP)

/-- `self._mapping[key]`, `none` for KeyError. `scalarproperties.py:114-115`. -/
def Registry.get (r : Registry) (key : String) : Option SP :=
  match r with
  | [] => none
  | (k, sp) :: r => if k = key then some sp else Registry.get r key

/-- `add`. `scalarproperties.py:124-133`. -/
def Registry.add (r : Registry) (sp : SP) : Res Registry :=
  match sp.symbol with
  | none => .error .valueError
  | some s => match r.get s with
    | some _ => .error .keyError
    | none => .ok (r ++ [(s, sp)])

/-- `remove`. `scalarproperties.py:142-143`. -/
def Registry.remove (r : Registry) (symbol : String) : Res Registry :=
  match r.get symbol with
  | none => .error .keyError
  | some _ => .ok (r.filter fun p => decide (p.1 ≠ symbol))

/-- `__call__`. `scalarproperties.py:145-155`. -/
def Registry.call (r : Registry) (expr : String) : SP :=
  match r.get expr with
  | some sp => sp
  | none => match r.find? fun p => decide (p.2.expr = expr) with
    | some p => p.2
    | none => ⟨expr, none, none, none⟩

/-- `_defaultscalars`. `scalarproperties.py:159-222`. -/
def defaultScalars : List SP := [
  ⟨"time", some "time", some "s", none⟩,
  ⟨"time", some "time", some "s", some "t"⟩,
  ⟨"weight", some "weight", some "npartpermacro", none⟩,
  ⟨"weight", some "weight", some "npartpermacro", some "w"⟩,
  ⟨"id", some "id", some "", none⟩,
  ⟨"mass", some "mass", some "kg", none⟩,
  ⟨"mass", some "mass", some "kg", some "m"⟩,
  ⟨"mass / atomic_mass", some "mass_u", some "amu", none⟩,
  ⟨"mass / atomic_mass", some "mass_u", some "amu", some "m_u"⟩,
  ⟨"charge", some "charge", some "C", none⟩,
  ⟨"charge", some "charge", some "C", some "q"⟩,
  ⟨"charge / elementary_charge", some "charge_e", some "", none⟩,
  ⟨"charge / elementary_charge", some "charge_e", some "", some "q_e"⟩,
  ⟨"x", some "x", some "m", none⟩,
  ⟨"x * 1e6", some "x_um", some "$\\mu$ m", none⟩,
  ⟨"y", some "y", some "m", none⟩,
  ⟨"y * 1e6", some "y_um", some "$\\mu$ m", none⟩,
  ⟨"z", some "z", some "m", none⟩,
  ⟨"z * 1e6", some "z_um", some "$\\mu$ m", none⟩,
  ⟨"px", some "px", some "kg*m/s", none⟩,
  ⟨"py", some "py", some "kg*m/s", none⟩,
  ⟨"pz", some "pz", some "kg*m/s", none⟩,
  ⟨"sqrt(px**2 + py**2 + pz**2)", some "p", some "kg*m/s", none⟩,
  ⟨"(px**2 + py**2 + pz**2)/(mass * c)**2", some "_np2", some "", none⟩,
  ⟨"_np2 / (sqrt(1 + _np2) + 1)", some "gamma_m1", some "", none⟩,
  ⟨"_np2 / (sqrt(1 + _np2) + 1) + 1", some "gamma", some "", none⟩,
  ⟨"gamma * mass", some "gamma_m", some "kg", none⟩,
  ⟨"beta * c", some "v", some "m/s", none⟩,
  ⟨"px / (gamma * mass)", some "vx", some "m/s", none⟩,
  ⟨"py / (gamma * mass)", some "vy", some "m/s", none⟩,
  ⟨"pz / (gamma * mass)", some "vz", some "m/s", none⟩,
  ⟨"sqrt(gamma_m1**2 + 2 * gamma_m1) / (gamma_m1 + 1)", some "beta", some "", none⟩,
  ⟨"vx / c", some "betax", some "", none⟩,
  ⟨"vy / c", some "betay", some "", none⟩,
  ⟨"vz / c", some "betaz", some "", none⟩,
  ⟨"mass * c**2", some "Eruhe", some "J", none⟩,
  ⟨"gamma_m1 * mass * c**2", some "Ekin", some "J", none⟩,
  ⟨"Ekin / elementary_charge / 1e6", some "Ekin_MeV", some "MeV", none⟩,
  ⟨"Ekin / elementary_charge / 1e6 / mass_u", some "Ekin_MeV_amu", some "MeV/u", none⟩,
  ⟨"Ekin / elementary_charge / 1e6 / mass_u * charge_e", some "Ekin_MeV_qm", some "MeV * q/m", none⟩,
  ⟨"Ekin / elementary_charge / 1e3", some "Ekin_keV", some "keV/u", none⟩,
  ⟨"Ekin / elementary_charge / 1e3 / mass_u", some "Ekin_keV_amu", some "keV/u", none⟩,
  ⟨"Ekin / elementary_charge / 1e3 / mass_u * charge_e", some "Ekin_keV_qm", some "keV * q/m", none⟩,
  ⟨"arctan2(py, px)", some "angle_xy", some "rad", none⟩,
  ⟨"arctan2(px, py)", some "angle_yx", some "rad", none⟩,
  ⟨"arctan2(pz, py)", some "angle_yz", some "rad", none⟩,
  ⟨"arctan2(py, pz)", some "angle_zy", some "rad", none⟩,
  ⟨"arctan2(px, pz)", some "angle_zx", some "rad", none⟩,
  ⟨"arctan2(pz, px)", some "angle_xz", some "rad", none⟩,
  ⟨"arctan2(sqrt(py**2 + pz**2), px)", some "angle_xaxis", some "rad", none⟩,
  ⟨"arctan2(sqrt(pz**2 + px**2), py)", some "angle_yaxis", some "rad", none⟩,
  ⟨"arctan2(sqrt(px**2 + py**2), pz)", some "angle_zaxis", some "rad", none⟩,
  ⟨"sqrt(x**2 + y**2)", some "r_xy", some "m", none⟩,
  ⟨"sqrt(y**2 + z**2)", some "r_yz", some "m", none⟩,
  ⟨"sqrt(z**2 + x**2)", some "r_zx", some "m", none⟩,
  ⟨"sqrt(x**2 + y**2 + z**2)", some "r_xyz", some "m", none⟩]

/-- The loop of `createdefaultscalarcontext`. `scalarproperties.py:226-230`. -/
def addAll : List SP → Registry → Res Registry
  | [], r => .ok r
  | sp :: l, r => do addAll l (← r.add sp)

/-- `createdefaultscalarcontext`. `scalarproperties.py:226-230`. -/
def createDefault : Res Registry := addAll defaultScalars []

end Postpic.Scalars
