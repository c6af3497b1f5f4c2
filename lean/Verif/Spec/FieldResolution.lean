import Mathlib.Algebra.Order.Field.Basic
import Verif.Model.Field

/-!
# Specification: evenly spaced axes and pad widths
-/

set_option autoImplicit false

namespace Postpic.Spec

open Postpic Postpic.Axes Postpic.Fields

variable {K : Type} [_root_.Field K] [LinearOrder K]

/-- An axis whose cells all have the size `h` and start at `e0`; the grid points are in the
middle of the cells. -/
structure EvenAxis (ax : Axis K) (e0 h : K) : Prop where
  nodes : ax.gridNode = (List.range (ax.grid.length + 1)).map fun (i : ℕ) => e0 + (i : K) * h
  grid : ax.grid = (List.range ax.grid.length).map fun (i : ℕ) => e0 + ((i : K) + 1 / 2) * h
  extent : ax.extent = (e0, e0 + (ax.grid.length : K) * h)

/-- A pad width means `p` cells of size `h`: it is this number, or a length for which `p` is the
smallest number of cells that covers it. -/
def MeansCells (h : K) (w : PadWidth K) (p : ℕ) : Prop :=
  match w with
  | .cells n => n = p
  | .length l => ((p : K) - 1) * h < l ∧ l ≤ p * h

/-- The interpolating splines reproduce evenly spaced points. -/
structure ExactOnEven (spl : Splines K) : Prop where
  centers : ∀ (a h : K) (n : ℕ), 0 < n →
    spl.centers ((List.range (n + 1)).map fun (i : ℕ) => a + (i : K) * h) =
      (List.range n).map fun (i : ℕ) => a + ((i : K) + 1 / 2) * h
  inner : ∀ (a h : K) (n : ℕ), 0 < n →
    spl.inner ((List.range (n + 1)).map fun (i : ℕ) => a + (i : K) * h) =
      (List.range n).map fun (i : ℕ) => a + ((i : K) + 1 / 2) * h

end Postpic.Spec
