import Verif.Lemmas.MapGrid
import Verif.Props.FieldAxes
import Verif.Props.FieldMoves

/-!
# C59: changing the coordinates of one axis
-/

set_option autoImplicit false
set_option linter.unusedSectionVars false

namespace Postpic.Props

open Postpic Postpic.Axes Postpic.Fields Postpic.Spec

variable {K V : Type} [_root_.Field K] [LinearOrder K] [IsStrictOrderedRing K] [AddCommGroup V]
  [Module K V]

/-- C59: `map_axis_grid` applies the transformation, which has to be strictly monotonic on the points of
the axis, to nodes and grid points of this axis. The data are divided by the value the Jacobian function
has at their grid point (which must not vanish), or kept. Nothing else is changed. -/
theorem map_axis_grid_value (spl : Splines K) (eps : K) (f : Field K V) (hf : f.Sound) (axis : ℕ)
    (ax : Axis K) (hax : f.axes[axis]? = some ax) (T : K → K)
    (hT : (∀ a ∈ ax.gridNode ++ ax.grid, ∀ b ∈ ax.gridNode ++ ax.grid, a < b → T a < T b) ∨
      (∀ a ∈ ax.gridNode ++ ax.grid, ∀ b ∈ ax.gridNode ++ ax.grid, a < b → T b < T a))
    (preserve : Bool) (jac : K → K) (hj : ∀ x ∈ ax.grid, jac x ≠ 0) :
    ∃ r ax', f.mapAxisGrid spl eps axis T preserve (some fun x => some (jac x)) = .ok r ∧ r.Sound ∧
      r.shape = f.shape ∧ f.SameRest r ∧ r.axes = f.axes.set axis ax' ∧
      ax'.name = ax.name ∧ ax'.unit = ax.unit ∧
      ax'.gridNode = ax.gridNode.map T ∧ ax'.grid = ax.grid.map T ∧
      ∀ idx i x, InBounds f.shape idx → idx[axis]? = some i → ax.grid[i]? = some x →
        r.matrix.at' idx = if preserve then (jac x)⁻¹ • f.matrix.at' idx else f.matrix.at' idx := by
  have hv := hf.valid ax (List.mem_of_getElem? hax)
  obtain ⟨r, h1, h2, h3, h4, h5, h6, h7, h8, h9⟩ := mapAxisGrid_sound spl eps hf hax (mapped_wf hv hT)
    preserve (some fun x => some (jac x)) (j := jac) (fun _ x hx => ⟨rfl, hj x hx⟩)
  refine ⟨r, _, h1, h2, h3, ⟨h4, h5, h6, h7⟩, h8, rfl, rfl, rfl, rfl, ?_⟩
  intro idx i x hidx hi hx
  rw [h9 idx hidx, List.getD_eq_getElem?_getD, List.getD_eq_getElem?_getD, hi, Option.getD_some, hx,
    Option.getD_some]

/-- C59: the integral over the axis (and over other axes) is kept if the given Jacobian is the mean slope
of the transformation in each cell. -/
theorem map_axis_grid_keeps_integral (spl : Splines K) (eps : K) (f : Field K V) (hf : f.Sound)
    (axis : ℕ) (ax : Axis K) (hax : f.axes[axis]? = some ax) (T : K → K)
    (hT : (∀ a ∈ ax.gridNode ++ ax.grid, ∀ b ∈ ax.gridNode ++ ax.grid, a < b → T a < T b) ∨
      (∀ a ∈ ax.gridNode ++ ax.grid, ∀ b ∈ ax.gridNode ++ ax.grid, a < b → T b < T a))
    (jac : K → K) (hj : ∀ x ∈ ax.grid, jac x ≠ 0)
    (hslope : ∀ (i : ℕ) (a g b : K), ax.gridNode[i]? = some a → ax.grid[i]? = some g →
      ax.gridNode[i + 1]? = some b → T b - T a = jac g * (b - a))
    (dims : List ℕ) (hd : ∀ i ∈ dims, i < f.shape.length) (hmem : axis ∈ dims) :
    ∃ r s s', f.mapAxisGrid spl eps axis T true (some fun x => some (jac x)) = .ok r ∧
      f.integrateFast (dims.map Int.ofNat) = .ok s ∧
      r.integrateFast (dims.map Int.ofNat) = .ok s' ∧ s'.matrix.Eqv s.matrix := by
  have hv := hf.valid ax (List.mem_of_getElem? hax)
  obtain ⟨r, h1, h2, h3, h4, h5, h6, h7, h8, h9⟩ := mapAxisGrid_sound spl eps hf hax (mapped_wf hv hT)
    true (some fun x => some (jac x)) (j := jac) (fun _ x hx => ⟨rfl, hj x hx⟩)
  obtain ⟨s, s', hs, hs', he⟩ := mapAxisGrid_integral hf h2 hax hj h3 h8
    (fun idx hidx => by rw [h9 idx hidx, if_pos rfl]) hslope hd hmem
  exact ⟨r, s, s', h1, hs, hs', he⟩

/-- C59 with the default, numerical Jacobian: the integral is kept by rising straight lines, for axes
without a grid point at -1. Missing: for falling lines the integral changes its sign
(`map_axis_grid_falling_violated`), a grid point at -1 gives `nan` (`map_axis_grid_minus_one_violated`);
other transformations keep the integral only approximately. -/
theorem map_axis_grid_default_partial (spl : Splines K) (eps : K) (heps : eps ≠ 0) (f : Field K V)
    (hf : f.Sound) (axis : ℕ) (ax : Axis K) (hax : f.axes[axis]? = some ax) (a b : K) (ha : 0 < a)
    (hm : -1 ∉ ax.grid) (dims : List ℕ) (hd : ∀ i ∈ dims, i < f.shape.length) (hmem : axis ∈ dims) :
    ∃ r s s', f.mapAxisGrid spl eps axis (fun x => a * x + b) true none = .ok r ∧
      f.integrateFast (dims.map Int.ofNat) = .ok s ∧
      r.integrateFast (dims.map Int.ofNat) = .ok s' ∧ s'.matrix.Eqv s.matrix := by
  have hv := hf.valid ax (List.mem_of_getElem? hax)
  have hT : (∀ x ∈ ax.gridNode ++ ax.grid, ∀ y ∈ ax.gridNode ++ ax.grid, x < y →
      a * x + b < a * y + b) := by
    intro x _ y _ hxy
    have := mul_lt_mul_of_pos_left hxy ha
    linarith
  obtain ⟨r, h1, h2, h3, h4, h5, h6, h7, h8, h9⟩ := mapAxisGrid_sound spl eps hf hax
    (mapped_wf hv (T := fun x => a * x + b) (Or.inl hT)) true none (j := fun _ => a) (by
      intro _ x hx
      refine ⟨?_, ha.ne'⟩
      have hx1 : x ≠ -1 := fun h => hm (h ▸ hx)
      rw [Option.getD_none, approx_affine heps hx1, abs_of_pos ha])
  obtain ⟨s, s', hs, hs', he⟩ := mapAxisGrid_integral hf h2 hax (j := fun _ => a) (fun _ _ => ha.ne') h3
    h8 (fun idx hidx => by rw [h9 idx hidx, if_pos rfl]) (by intro i x g y _ _ _; ring) hd hmem
  exact ⟨r, s, s', h1, hs, hs', he⟩

/-- Stretching the first axis of a field by 2: the data are halved, the integrals are the same. -/
example : ((field43.mapAxisGrid midSplines (1 / 1000) 0 (fun x => 2 * x + 1) true none).map fun r =>
      (values r, r.axes.map (·.gridNode))) =
    .ok ([0, 1 / 2, 1, 50, 101 / 2, 51, 100, 201 / 2, 101, 150, 301 / 2, 151],
      [[1, 3, 5, 7, 9], [0, 2, 4, 6]]) ∧
    (field43.mapAxisGrid midSplines (1 / 1000) 0 (fun x => 2 * x + 1) true none >>= fun r =>
      (r.integrateFast [0]).map values) = (field43.integrateFast [0]).map values := by
  refine ⟨?_, ?_⟩ <;> decide +kernel

/-- A transformation which is not a straight line. -/
example : ((field43.mapAxisGrid midSplines (1 / 1000) 0 (fun x => x * x) true
      (some fun x => some (2 * x))).map fun r => (r.axes.map (·.gridNode), r.axes.map (·.grid))) =
    .ok ([[0, 1, 4, 9, 16], [0, 2, 4, 6]], [[1 / 4, 9 / 4, 25 / 4, 49 / 4], [1, 3, 5]]) ∧
    (∀ x ∈ (uniformAxis 0 4 4).grid, 2 * x ≠ 0) := by
  refine ⟨?_, ?_⟩ <;> decide +kernel

/-- Mirroring an axis, with the default options, changes the sign of the integral. -/
theorem map_axis_grid_falling_violated :
    (field43.mapAxisGrid midSplines (1 / 1000) 0 (fun x => -x) true none >>= fun r =>
      (r.integrateFast [0, 1]).map values) = .ok [-3624] ∧
    (field43.integrateFast [0, 1]).map values = .ok [3624] := by
  refine ⟨?_, ?_⟩ <;> decide +kernel

/-- A field with an axis with a grid point at -1. -/
def fieldMinusOne : Field ℚ ℚ :=
  ⟨"f", "", ⟨[3], fun _ => 1⟩, [uniformAxis (-3 / 2) (3 / 2) 3], [some false], [none]⟩

/-- Even the identity fails, with the default options, for an axis with a grid point at -1: the value
there is `nan`. -/
theorem map_axis_grid_minus_one_violated (eps : ℚ) :
    (fieldMinusOne.mapAxisGrid midSplines eps 0 id true none).map values =
      .error .undefinedBehaviour := by
  have h : approx1dJacobianDet eps id (-1 : ℚ) = none := by
    unfold approx1dJacobianDet
    simp
  have hg : (uniformAxis (-3 / 2) (3 / 2) 3).grid = [-1, 0, 1] := by decide +kernel
  have hlen : (uniformAxis (-3 / 2) (3 / 2) 3).len = 3 := by decide +kernel
  simp [Field.mapAxisGrid, fieldMinusOne, Field.dims, Field.shape, pyGet, pyIdx, hg, hlen,
    List.mapM_cons, h, divisor, bind, Except.bind, Except.map]

end Postpic.Props
