import Verif.Model.Calculus
import Verif.Model.Fft
import Verif.Spec.FieldNatural

/-!
# Specification: linear methods
-/

set_option autoImplicit false

namespace Postpic.Spec

open Postpic Postpic.Axes Postpic.Fields

variable {K V : Type} [_root_.Field K] [LinearOrder K] [AddCommGroup V] [Module K V]

/-- The field `h` is `a f + b g`: all three have the same axes. -/
structure Combination {R K V : Type} [Add V] [SMul R V] (a b : R) (f g h : Fields.Field K V) : Prop where
  first : SameAxes f g
  second : SameAxes f h
  values : ∀ idx, InBounds f.shape idx → h.matrix.at' idx = a • f.matrix.at' idx + b • g.matrix.at' idx

/-- The method gives `a F + b G` for `a f + b g`, if it gives `F` for `f` and `G` for `g`; exceptions do not depend on the values. -/
def LinearFor {R K V : Type} [Add V] [SMul R V] (T : Fields.Field K V → Res (Fields.Field K V)) (a b : R) (f g h : Fields.Field K V) : Prop :=
  match T f with
  | .error e => T g = .error e ∧ T h = .error e
  | .ok F => ∃ G H, T g = .ok G ∧ T h = .ok H ∧ Combination a b F G H

/-- The arithmetic mean of a list of values. -/
def meanOf (K : Type) {V : Type} [_root_.Field K] [AddCommGroup V] [Module K V] (l : List V) : V := (l.length : K)⁻¹ • l.sum

/-- Methods which are linear in the values. -/
inductive LinearMethod (K : Type) where
  | move (r : Rearrangement K)
  | sum (axis : Option (List ℤ)) (keepdims : Bool)
  | mean (axis : Option (List ℤ)) (keepdims : Bool)
  | integrateConstant (axes : List ℤ)
  | integrateFast (axes : List ℤ)
  | simpson (axes : Option (List ℤ))
  | trapezoid (axes : Option (List ℤ))
  | halfResolution (axis : ℕ)
  | autoreduce (maxlen : ℤ) (fuel : ℕ)
  | derivative (axis : ℤ)
  | derivativeStagger (axis : ℤ)

/-- The method of `Field`. -/
def LinearMethod.apply (spl : Splines K) (f : Fields.Field K V) : LinearMethod K → Res (Fields.Field K V)
  | .move r => Rearrangement.apply spl f r
  | .sum axis kd => f.reduce spl List.sum axis kd
  | .mean axis kd => f.reduce spl (meanOf K) axis kd
  | .integrateConstant axes => f.integrateConstant spl axes
  | .integrateFast axes => f.integrateFast axes
  | .simpson axes => f.integrateMethod Fields.simpson axes
  | .trapezoid axes => f.integrateMethod Fields.trapezoid axes
  | .halfResolution axis => f.halfResolution spl axis
  | .autoreduce m fuel => match f.autoreduce spl m fuel with
    | some r => r
    | none => .error .genericException
  | .derivative axis => f.derivative axis
  | .derivativeStagger axis => f.derivativeStagger spl axis

/-- A sequence of methods, the first one first. -/
def applyAll (spl : Splines K) : List (LinearMethod K) → Fields.Field K V → Res (Fields.Field K V)
  | [], f => .ok f
  | m :: ms, f => do applyAll spl ms (← LinearMethod.apply spl f m)

end Postpic.Spec
