import Verif.Model.MapComplex

/-! # Specification: resampling of complex fields -/

set_option autoImplicit false

namespace Postpic.Spec

open Postpic Postpic.Axes Postpic.Fields

/-- The point number `idx` of the new grid is `point`, and its transform lies at the position `pos` of the array of `f`. -/
def FoundAt (f : Field ℝ ℂ) (newaxes : List (Axis ℝ)) (T : List ℝ → List ℝ) (idx : List ℕ) (pos : List ℝ) : Prop :=
  ∃ point : List ℝ,
    List.Forall₂ (fun (p : Axis ℝ × ℕ) x => p.1.grid[p.2]? = some x) (newaxes.zip idx) point ∧
    (T point).length = f.shape.length ∧
    List.Forall₂ (fun (p : Axis ℝ × ℝ) c => p.1.valueToIndex p.2 = .ok c) (f.axes.zip (T point)) pos

/-- Unwrapping changes angles by whole turns only. -/
def Unwraps (u : Arr ℝ → Arr ℝ) : Prop :=
  ∀ a, (u a).shape = a.shape ∧ ∀ idx, InBounds a.shape idx → ∃ k : ℤ, (u a).at' idx = a.at' idx + k * (2 * Real.pi)

/-- The transform is `x = A u + b`. -/
def Affine (T : List ℝ → List ℝ) {n : ℕ} (A : Matrix (Fin n) (Fin n) ℝ) (b : Fin n → ℝ) : Prop :=
  ∀ u : List ℝ, u.length = n → (T u).length = n ∧ ∀ i : Fin n, (T u).getD i 0 = ∑ j : Fin n, A i j * u.getD j 0 + b i

end Postpic.Spec
