import Verif.Model.Field

/-!
# Sequences of field operations

A small language for programs which apply methods of `Field` one after the other.
-/

set_option autoImplicit false

namespace Postpic.Fields

open Postpic Postpic.Axes

/-- The operations of `Model/Field.lean`. Operators and functions of numpy are arbitrary functions
of the values. -/
inductive Op (K V : Type) where
  | number (g : V → V → V) (c : V)
  | array (g : V → V → V) (b : Arr V)
  | binary (g : V → V → V) (h : Field K V)
  | getitem (key : List (Key K))
  | squeeze
  | atleastNd (n : ℤ)
  | transpose (axes : Option (List ℤ))
  | swapaxes (a b : ℤ)
  | flip (axis : ℤ)
  | rot90 (k a b : ℤ)
  | reduce (red : List V → V) (axis : Option (List ℤ)) (keepdims : Bool)
  | integrateConstant (axes : List ℤ)
  | integrateFast (axes : List ℤ)
  | halfResolution (axis : ℕ)
  | autoreduce (maxlen : ℤ) (fuel : ℕ)
  | derivative (axis : ℤ)
  | replaceData (m : Arr V)
  | pad (w : List (PadWidth K × PadWidth K)) (c : V)

variable {K V : Type} [_root_.Field K] [LinearOrder K] [FloorRing K] [AddCommGroup V] [Module K V]

/-- One operation. A run of `autoreduce` which needs more than `fuel` rounds counts as an
exception. -/
def Op.apply (spl : Splines K) (f : Field K V) : Op K V → Res (Field K V)
  | .number g c => f.binaryNumber g c
  | .array g b => f.binaryArray g b
  | .binary g h => f.binary g h
  | .getitem key => f.getitem spl key
  | .squeeze => f.squeeze spl
  | .atleastNd n => f.atleastNd spl n
  | .transpose axes => f.transpose axes
  | .swapaxes a b => f.swapaxes a b
  | .flip axis => f.flip spl axis
  | .rot90 k a b => f.rot90 spl k a b
  | .reduce red axis kd => f.reduce spl red axis kd
  | .integrateConstant axes => f.integrateConstant spl axes
  | .integrateFast axes => f.integrateFast axes
  | .halfResolution axis => f.halfResolution spl axis
  | .autoreduce m fuel => match f.autoreduce spl m fuel with
    | some r => r
    | none => .error .genericException
  | .derivative axis => f.derivativeStagger spl axis
  | .replaceData m => f.replaceData m
  | .pad w c => f.pad spl w c

/-- A sequence of operations, the first one first. -/
def run (spl : Splines K) : List (Op K V) → Field K V → Res (Field K V)
  | [], f => .ok f
  | op :: ops, f => do run spl ops (← op.apply spl f)

end Postpic.Fields
