import Verif.Model.ScalarEval
import Verif.Model.HistogramFloat

/-!
# Model of the evaluation of particle scalars with rounding

`_eval_single_sp` (`postpic/particles/particles.py:295-328`) for one particle; every operation of `numexpr` is followed by the rounding
`rnd`, a parameter. Values of the dump and constants are finite. Simplifications: no memo table (C17 shows that it does not matter);
integer powers are products (`numexpr` expands them); `arctan2` is a single rounded operation.
-/

set_option autoImplicit false

namespace Postpic.Scalars

open Postpic Postpic.Histogram

/-- `a / b` of numpy and numexpr: no exception, the sign of zero is not modelled. -/
noncomputable def divF (rnd : ℝ → Dbl ℝ) : Dbl ℝ → Dbl ℝ → Dbl ℝ
  | .fin x, .fin y => if y = 0 then (if x = 0 then .nan else .inf (decide (x < 0))) else rnd (x / y)
  | .inf s, .fin y => .inf (s != decide (y < 0))
  | .fin _, .inf _ => .fin 0
  | _, _ => .nan

/-- `sqrt(a)`. -/
noncomputable def sqrtF (rnd : ℝ → Dbl ℝ) : Dbl ℝ → Dbl ℝ
  | .fin x => if x < 0 then .nan else rnd (Real.sqrt x)
  | .inf false => .inf false
  | _ => .nan

/-- `a ** n`. -/
noncomputable def powF (rnd : ℝ → Dbl ℝ) (a : Dbl ℝ) : ℕ → Dbl ℝ
  | 0 => .fin 1
  | 1 => a
  | n + 1 => Dbl.mul rnd (powF rnd a n) a

/-- `arctan2(a, b)` for finite numbers. -/
noncomputable def arctan2F (rnd : ℝ → Dbl ℝ) : Dbl ℝ → Dbl ℝ → Dbl ℝ
  | .fin a, .fin b => rnd (Complex.arg ⟨b, a⟩)
  | _, _ => .nan

/-- `sp.evaluate(_vars)`: the value of an expression. `scalarproperties.py:84-90`. -/
noncomputable def Expr.evalF (rnd : ℝ → Dbl ℝ) (env : String → Res (Dbl ℝ)) : Expr → Res (Dbl ℝ)
  | .num q => .ok (rnd q)
  | .var s => env s
  | .add a b => do return Dbl.add rnd (← a.evalF rnd env) (← b.evalF rnd env)
  | .sub a b => do return Dbl.sub rnd (← a.evalF rnd env) (← b.evalF rnd env)
  | .mul a b => do return Dbl.mul rnd (← a.evalF rnd env) (← b.evalF rnd env)
  | .div a b => do return divF rnd (← a.evalF rnd env) (← b.evalF rnd env)
  | .neg a => do return Dbl.neg (← a.evalF rnd env)
  | .pow a n => do return powF rnd (← a.evalF rnd env) n
  | .sqrt a => do return sqrtF rnd (← a.evalF rnd env)
  | .arctan2 a b => do return arctan2F rnd (← a.evalF rnd env) (← b.evalF rnd env)

/-- The value of a variable. `particles.py:306-327`. -/
noncomputable def nameF (rnd : ℝ → Dbl ℝ) (reg : String → Option Expr) (src : Sources) : ℕ → String → Res (Dbl ℝ)
  | 0, _ => .error .recursionError
  | fuel + 1, name =>
    if fullname name ∈ atomicProps then
      match src.atomic (fullname name) with
      | some v => .ok (.fin v)
      | none => .error .keyError
    else match reg name with
      | some e => e.evalF rnd (nameF rnd reg src fuel)
      | none => match src.constants name with
        | some v => .ok (.fin v)
        | none => match src.np name with
          | some v => .ok (.fin v)
          | none => .error .keyError

/-- `self(text)`. `particles.py:655-657`. `none` for texts outside of the modelled fragment. -/
noncomputable def readTextF (rnd : ℝ → Dbl ℝ) (r : Registry) (src : Sources) (fuel : ℕ) (text : String) : Option (Res (Dbl ℝ)) :=
  (parse (r.call text).expr).map fun e => e.evalF rnd (nameF rnd r.exprs src fuel)

end Postpic.Scalars
