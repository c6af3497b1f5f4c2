import Mathlib.Algebra.BigOperators.Group.Finset.Basic
import Mathlib.Algebra.Module.Defs
import Mathlib.Data.Nat.Notation
import Verif.Model.Field

/-!
# Specification: reductions and integrals
-/

set_option autoImplicit false

namespace Postpic.Spec

open Postpic Postpic.Axes

/-- One flag per dimension: is it one of the given dimensions? -/
def flags (n : ℕ) (dims : List ℕ) : List Bool := (List.range n).map fun d => decide (d ∈ dims)

/-- The entries of the list whose flag is not set, in order. -/
def unflagged {α : Type} : List Bool → List α → List α
  | s :: sel, a :: l => if s then unflagged sel l else a :: unflagged sel l
  | _, _ => []

/-- The axis with the same name, unit and extent but a single cell. -/
def singleCell {K : Type} [Field K] (ax : Axis K) : Axis K :=
  ⟨ax.name, ax.unit, [ax.extent.1, ax.extent.2], [(ax.extent.1 + ax.extent.2) / 2], ax.extent⟩

/-- The sizes of the cells of an axis: the differences of neighbouring nodes. -/
def cellSizes {K : Type} [Sub K] (ax : Axis K) : List K :=
  List.zipWith (fun a b => b - a) ax.gridNode ax.gridNode.tail

/-- The integral of `g`, assuming constant values in each cell, over the flagged dimensions; `boxes`
are the sizes of the cells along each dimension, `idx` gives the position in the other
dimensions. -/
def integral {K V : Type} [Zero K] [AddCommMonoid V] [SMul K V] :
    List (List K) → List Bool → (List ℕ → V) → List ℕ → V
  | b :: bs, true :: sel, g, idx =>
    ∑ i ∈ Finset.range b.length, b.getD i 0 • integral bs sel (fun j => g (i :: j)) idx
  | _ :: bs, false :: sel, g, i :: idx => integral bs sel (fun j => g (i :: j)) idx
  | _, _, g, _ => g []

end Postpic.Spec
