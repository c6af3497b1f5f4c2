import Verif.Spec.FieldMoves

/-!
# Specification: selecting and rearranging the samples of a field
-/

set_option autoImplicit false

namespace Postpic.Spec

open Postpic Postpic.Axes Postpic.Fields

variable {K V W : Type}

/-- Methods which select or rearrange samples, without looking at the values. -/
inductive Rearrangement (K : Type) where
  | getitem (key : List (Key K))
  | squeeze
  | atleastNd (n : ℤ)
  | transpose (axes : Option (List ℤ))
  | swapaxes (a b : ℤ)
  | flip (axis : ℤ)
  | rot90 (k a b : ℤ)

variable [_root_.Field K] [LinearOrder K]

/-- The method of `Field`. -/
def Rearrangement.apply (spl : Splines K) (f : Fields.Field K V) : Rearrangement K → Res (Fields.Field K V)
  | .getitem key => f.getitem spl key
  | .squeeze => f.squeeze spl
  | .atleastNd n => f.atleastNd spl n
  | .transpose axes => f.transpose axes
  | .swapaxes a b => f.swapaxes a b
  | .flip axis => f.flip spl axis
  | .rot90 k a b => f.rot90 spl k a b

/-- A sequence of methods, the first one first. -/
def rearrange (spl : Splines K) : List (Rearrangement K) → Fields.Field K V → Res (Fields.Field K V)
  | [], f => .ok f
  | op :: ops, f => do rearrange spl ops (← Rearrangement.apply spl f op)

/-- A function of the values, applied to every sample. -/
def each {K V W : Type} (u : V → W) (f : Fields.Field K V) : Fields.Field K W :=
  ⟨f.name, f.unit, ⟨f.matrix.shape, fun idx => u (f.matrix.at' idx)⟩, f.axes, f.ats, f.tao⟩

/-- Two fields on the same axes, in the same domain. -/
structure SameAxes {K V W : Type} (f : Fields.Field K V) (h : Fields.Field K W) : Prop where
  shape : h.matrix.shape = f.matrix.shape
  axes : h.axes = f.axes
  ats : h.ats = f.ats
  tao : h.tao = f.tao

/-- Both give the same exception, or results in a relation. -/
def BothGive {A B : Type} (R : A → B → Prop) : Res A → Res B → Prop
  | .ok a, .ok b => R a b
  | .error e, .error e' => e = e'
  | _, _ => False

end Postpic.Spec
