import Mathlib.Analysis.SpecialFunctions.Pow.Real
import Mathlib.Analysis.SpecialFunctions.Complex.Arg
import Verif.Model.ScalarExpr
import Verif.Model.ScalarRegistry

/-!
# Model of the evaluation of particle scalars

`postpic/particles/particles.py:75-76, 295-328`, for one particle and real numbers (numexpr works
elementwise). Division by zero gives 0 here; the theorems about values assume non zero
denominators. RecursionError is modelled by a fuel argument.
-/

set_option autoImplicit false

namespace Postpic.Scalars

open Postpic

/-- Value of an expression. -/
noncomputable def Expr.eval (env : String → ℝ) : Expr → ℝ
  | .num q => q
  | .var s => env s
  | .add a b => a.eval env + b.eval env
  | .sub a b => a.eval env - b.eval env
  | .mul a b => a.eval env * b.eval env
  | .div a b => a.eval env / b.eval env
  | .neg a => - a.eval env
  | .pow a n => a.eval env ^ n
  | .sqrt a => Real.sqrt (a.eval env)
  | .arctan2 a b => Complex.arg ⟨b.eval env, a.eval env⟩

/-- `_atomicprops`. `particles.py:75`. -/
def atomicProps : List String :=
  ["weight", "x", "y", "z", "px", "py", "pz", "mass", "charge", "id", "time"]

/-- `self._atomicprops_synonyms.get(name, name)`. `particles.py:76, 311`. -/
def fullname (name : String) : String :=
  if name = "w" then "weight" else if name = "m" then "mass" else if name = "q" then "charge"
  else if name = "t" then "time" else name

/-- Where values come from: properties stored in the dump (`none`: not dumped, KeyError), and the
attributes of the modules `numpy` and `scipy.constants` (`none`: AttributeError). -/
structure Sources where
  atomic : String → Option ℝ
  np : String → Option ℝ
  constants : String → Option ℝ

/-- The dictionary `_vars`. -/
abbrev Vars := String → Option ℝ

/-- `_vars[name] = v`. -/
def Vars.set (vars : Vars) (name : String) (v : ℝ) : Vars :=
  fun s => if s = name then some v else vars s

/-- The loop over `sp.input_names`. `particles.py:306-327`. `rec` is the recursive call. `_vars` is
the same object everywhere. -/
def loadAll (reg : String → Option Expr) (src : Sources) (rec : Expr → Vars → Res ℝ × Vars) :
    List String → Vars → Res Unit × Vars
  | [], vars => (.ok (), vars)
  | name :: names, vars =>
    match vars name with
    | some _ => loadAll reg src rec names vars
    | none => match vars (fullname name) with
      | some v => loadAll reg src rec names (vars.set name v)
      | none =>
        if fullname name ∈ atomicProps then
          match src.atomic (fullname name) with
          | some v => loadAll reg src rec names (vars.set name v)
          | none => (.error .keyError, vars)
        else match reg name with
          | some e => match rec e vars with
            | (.ok v, vars) => loadAll reg src rec names (vars.set name v)
            | (.error err, vars) => (.error err, vars)
          | none => match src.constants name with
            | some v => loadAll reg src rec names (vars.set name v)
            | none => match src.np name with
              | some v => loadAll reg src rec names (vars.set name v)
              | none => (.error .keyError, vars)

/-- `_eval_single_sp`. `particles.py:295-328`. `order` is the order in which `input_names` lists the
variables. `fuel` is the number of nested calls python allows. -/
noncomputable def evalSp (order : Expr → List String) (reg : String → Option Expr) (src : Sources) :
    ℕ → Expr → Vars → Res ℝ × Vars
  | 0, _, vars => (.error .recursionError, vars)
  | fuel + 1, e, vars =>
    match loadAll reg src (evalSp order reg src fuel) (order e) vars with
    | (.ok (), vars) => (.ok (e.eval fun s => (vars s).getD 0), vars)
    | (.error err, vars) => (.error err, vars)

/-- The scalars as expressions: `particle_scalars[name]`. -/
def Registry.exprs (r : Registry) (name : String) : Option Expr :=
  match r.get name with
  | none => none
  | some sp => parse sp.expr

/-- The default registry. -/
def defaultRegistry : Registry := defaultScalars.map fun sp => (sp.symbol.getD "", sp)

/-- `self(text)`: look up the scalar (`particles.py:655-657`), then evaluate it. `none` for texts
outside of the modelled fragment. -/
noncomputable def readText (order : Expr → List String) (r : Registry) (src : Sources) (fuel : ℕ)
    (text : String) : Option (Res ℝ) :=
  (parse (r.call text).expr).map fun e => (evalSp order r.exprs src fuel e fun _ => none).1

end Postpic.Scalars
