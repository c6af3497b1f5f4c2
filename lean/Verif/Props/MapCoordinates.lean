import Verif.Lemmas.Polar
import Verif.Lemmas.Topolar
import Verif.Props.FieldMoves
import Verif.Props.Fft

/-!
# C60: resampling fields on other grids
-/

set_option autoImplicit false
set_option linter.unusedSectionVars false

namespace Postpic.Props

open Postpic Postpic.Axes Postpic.Fields Postpic.Spec

section
variable {K : Type} [_root_.Field K] [LinearOrder K] [IsStrictOrderedRing K]

/-- C60: positions on an axis which is not linear. Between the left node and the grid point of cell `i`
the position rises linearly from `i - 1/2` to `i`, and between the grid point and the right node from
`i` to `i + 1/2`. This holds for rising and for falling axes. -/
theorem value_to_index_nonlinear (ax : Axis K) (hv : ValidAxis ax.gridNode ax.grid ax.extent)
    (hl : ax.isLinear = false) (i : ℕ) (a g b v part : K) (ha : ax.gridNode[i]? = some a)
    (hg : ax.grid[i]? = some g) (hb : ax.gridNode[i + 1]? = some b) :
    (OnTheWay a g v part → ax.valueToIndex v = .ok ((i : K) - 1 / 2 + part / 2)) ∧
    (OnTheWay g b v part → ax.valueToIndex v = .ok ((i : K) + part / 2)) := by
  unfold Axis.valueToIndex
  rw [hl]
  simp only [Bool.false_eq_true, if_false]
  constructor
  · intro h
    rw [nonlinear_between hv (m := 2 * i) ((weave_get_node hv i).trans ha)
      ((weave_get_grid hv i).trans hg) h]
    congr 1
    push_cast
    ring
  · intro h
    have e : 2 * i + 1 + 1 = 2 * (i + 1) := by ring
    rw [nonlinear_between hv (m := 2 * i + 1) ((weave_get_grid hv i).trans hg)
      (by rw [e]; exact (weave_get_node hv (i + 1)).trans hb) h]
    congr 1
    push_cast
    ring

/-- C60: positions on an axis with cells of equal size. -/
theorem value_to_index_even (ax : Axis K) (e0 h : K) (he : EvenAxis ax e0 h) (hh : h ≠ 0)
    (hn : 0 < ax.len) (v : K) : ax.valueToIndex v = .ok ((v - e0) / h - 1 / 2) :=
  even_index he hh hn v

/-- C60: the position of grid point `i` is `i`, if the axis has cells of equal size or is not linear.
Missing: axes with one or two cells are always taken as linear, see `value_to_index_grid_violated`, and
axes which are linear within the tolerance of `isclose`. -/
theorem value_to_index_grid_partial (ax : Axis K) (hv : ValidAxis ax.gridNode ax.grid ax.extent)
    (hl : ax.isLinear = false ∨ ∃ e0 h : K, h ≠ 0 ∧ EvenAxis ax e0 h) (i : ℕ) (g : K)
    (hg : ax.grid[i]? = some g) : ax.valueToIndex g = .ok (i : K) := by
  rcases hl with hl | ⟨e0, h, hh, he⟩
  · exact resolves_nonlinear hv hl i g hg
  · exact resolves_even he hh i g hg

/-- An axis with cells of increasing size. -/
def unevenAxis : Axis ℚ := ⟨"x", "", [0, 1, 3, 6], [1 / 2, 2, 5], (0, 6)⟩

example : unevenAxis.isLinear = false ∧
    ValidAxis unevenAxis.gridNode unevenAxis.grid unevenAxis.extent ∧
    (unevenAxis.grid ++ unevenAxis.gridNode ++ [4, 7]).mapM unevenAxis.valueToIndex =
      .ok [0, 1, 2, -1 / 2, 1 / 2, 3 / 2, 5 / 2, 7 / 4, 5 / 2] := by
  refine ⟨by decide +kernel, ⟨?_, rfl, rfl⟩, by decide +kernel⟩
  rw [wf_iff]
  left
  simp only [unevenAxis, Interleave]
  norm_num

/-- The first grid point of an axis with two cells of different size is not found at position 0. -/
theorem value_to_index_grid_violated :
    (⟨"x", "", [0, 1, 3], [1 / 2, 2], (0, 3)⟩ : Axis ℚ).valueToIndex (1 / 2) = .ok (-1 / 6) := by
  decide +kernel

end

/-! ### Interpolation -/

section
variable {K : Type} [_root_.Field K] [LinearOrder K] [IsStrictOrderedRing K] [FloorRing K]

/-- C60: with `order=1`, a sample inside of the array is the multilinear interpolation of the
neighbours, whatever the mode; and outside of the array it is `cval` in the default mode. -/
theorem interp_linear (a : Arr K) (cval : K) (cs : List K) (hl : cs.length = a.shape.length) :
    (List.Forall₂ Interp.Inside a.shape cs → ∀ mode,
      Interp.interp linearWeights 1 mode cval a cs = .ok (multilinear cs a.at')) ∧
    (¬ List.Forall₂ Interp.Inside a.shape cs →
      Interp.interp linearWeights 1 .constant cval a cs = .ok cval) :=
  ⟨fun h mode => interp_linear_inside cval mode h, interp_linear_outside cval hl⟩

/-- In the middle of four values, and outside. -/
example : Interp.interp linearWeights 1 .constant 7 (field43.matrix : Arr ℚ) [3 / 2, 1 / 2] =
      .ok (301 / 2) ∧
    Interp.interp linearWeights 1 .constant 7 (field43.matrix : Arr ℚ) [3 / 2, 5 / 2] = .ok 7 := by
  refine ⟨?_, ?_⟩ <;> decide +kernel

/-- C60: linear interpolation at the grid points returns the data. -/
theorem interp_linear_exact (a : Arr K) (cval : K) (mode : Interp.Mode) (idx : List ℕ)
    (h : InBounds a.shape idx) :
    Interp.interp linearWeights 1 mode cval a (idx.map fun (i : ℕ) => (i : K)) = .ok (a.at' idx) := by
  rw [interp_linear_inside cval mode (inside_nat h), multilinear_nat]

end

/-! ### Fields -/

section
variable {K V : Type} [_root_.Field K] [LinearOrder K] [IsStrictOrderedRing K] [Zero V] [SMul K V]

/-- C60: the value of the result at a point of the new grid is the sample of the data at the position of
the transformed point, multiplied by the Jacobian determinant at the point of the new grid if the
integral is to be preserved. -/
theorem map_coordinates_value (sample : Arr V → List K → Res V) (f : Field K V) (hf : f.Sound)
    (newaxes : List (Axis K)) (T : List K → List K) (jac : List K → K) (preserve : Bool)
    (hp : preserve = true → newaxes.length = f.shape.length) (position : List ℕ → List K)
    (val : List ℕ → V)
    (h : ∀ idx point, InBounds (newaxes.map Axis.len) idx →
      List.Forall₂ (fun (p : Axis K × ℕ) x => p.1.grid[p.2]? = some x) (newaxes.zip idx) point →
      (T point).length = f.shape.length ∧
      List.Forall₂ (fun (p : Axis K × K) c => p.1.valueToIndex p.2 = .ok c) (f.axes.zip (T point))
        (position idx) ∧
      sample f.matrix (position idx) = .ok (val idx)) :
    ∃ r, f.mapCoordinates sample newaxes (some (T, jac)) preserve = .ok r ∧ r.axes = newaxes ∧
      r.shape = newaxes.map Axis.len ∧ r.name = f.name ∧ r.unit = f.unit ∧
      ∀ idx point, InBounds r.shape idx →
        List.Forall₂ (fun (p : Axis K × ℕ) x => p.1.grid[p.2]? = some x) (newaxes.zip idx) point →
        r.matrix.at' idx = if preserve then jac point • val idx else val idx := by
  have hgp : ∀ idx, InBounds (newaxes.map Axis.len) idx →
      List.Forall₂ (fun (p : Axis K × ℕ) x => p.1.grid[p.2]? = some x) (newaxes.zip idx)
        (gridPoint newaxes idx) := by
    intro idx hidx
    obtain ⟨g1, g2⟩ := gridPoint_get hidx
    have hl := hidx.1
    rw [List.length_map] at hl
    rw [List.forall₂_iff_get]
    refine ⟨by simp [g1, hl], ?_⟩
    intro d h1 h2
    rw [List.length_zip, hl, min_self] at h1
    obtain ⟨g, hg, hd⟩ := g2 d (idx[d]'(by omega)) newaxes[d] (List.getElem?_eq_getElem _)
      (List.getElem?_eq_getElem _)
    obtain ⟨_, hd'⟩ := List.getElem?_eq_some_iff.1 hd
    simp only [List.get_eq_getElem, List.getElem_zip, hd']
    exact hg
  have hs : ∀ idx, InBounds (newaxes.map Axis.len) idx →
      f.sampleAt sample newaxes T idx = .ok (val idx) := by
    intro idx hidx
    obtain ⟨h1, h2, h3⟩ := h idx _ hidx (hgp idx hidx)
    unfold Field.sampleAt
    have : (f.axes.zip (T (gridPoint newaxes idx))).mapM (fun p => p.1.valueToIndex p.2) =
        .ok (position idx) := mapM_of_forall2 h2
    simp only [this, bind, Except.bind]
    have hlen := h2.length_eq
    rw [List.length_zip, ok_axes_length hf.ok, h1, min_self] at hlen
    rw [if_neg (not_not.2 hlen.symm), h3]
  obtain ⟨r, r1, r2, r3, r4, r5, _, r7⟩ := mapCoordinates_ok sample f newaxes T jac preserve (some (T, jac)) rfl
    (fun hh => by rw [dims_sound hf, hp hh]) val hs
  refine ⟨r, r1, r2, r3, r4, r5, ?_⟩
  intro idx point hidx hpt
  have : gridPoint newaxes idx = point := by
    rw [r3] at hidx
    have e := hgp idx hidx
    apply List.ext_get (e.length_eq.symm.trans hpt.length_eq)
    intro d h1 h2
    have a1 := (List.forall₂_iff_get.1 e).2 d (by rw [e.length_eq]; exact h1) h1
    have a2 := (List.forall₂_iff_get.1 hpt).2 d (by rw [e.length_eq]; exact h1) h2
    exact Option.some.inj (a1.symm.trans a2)
  rw [r7 idx hidx, this]

end

section
variable {K : Type} [_root_.Field K] [LinearOrder K] [IsStrictOrderedRing K]

/-- C60: resampling a field on its own grid returns the same data, names and axes if all axes have
cells of equal size or are not linear, and if the interpolation is exact at the points of the array (see
`interp_linear_exact`). Missing: short uneven axes, see `map_coordinates_same_grid_violated`; the
stored transform states and origins are replaced. -/
theorem map_coordinates_same_grid_partial (sample : Arr K → List K → Res K) (f : Field K K)
    (hf : f.Sound)
    (hax : ∀ ax ∈ f.axes, ax.isLinear = false ∨ ∃ e0 h : K, h ≠ 0 ∧ EvenAxis ax e0 h)
    (hs : ∀ idx, InBounds f.shape idx →
      sample f.matrix (idx.map fun (i : ℕ) => (i : K)) = .ok (f.matrix.at' idx)) (preserve : Bool) :
    ∃ r, f.mapCoordinates sample f.axes none preserve = .ok r ∧ r.matrix.Eqv f.matrix ∧
      r.axes = f.axes ∧ r.name = f.name ∧ r.unit = f.unit := by
  have hr : ∀ ax ∈ f.axes, Resolves ax := by
    intro ax hm
    rcases hax ax hm with h | ⟨e0, h, hh, he⟩
    · exact resolves_nonlinear (hf.valid ax hm) h
    · exact resolves_even he hh
  have hl : f.axes.map Axis.len = f.shape := hf.ok.lengths
  obtain ⟨r, r1, r2, r3, r4, r5, _, r7⟩ := mapCoordinates_ok sample f f.axes id (fun _ => 1) preserve none rfl
    (fun _ => by rw [dims_sound hf, ok_axes_length hf.ok]) f.matrix.at' (by
      intro idx hidx
      unfold Field.sampleAt
      rw [id_eq]
      simp only [positions_resolve hr hidx, bind, Except.bind]
      rw [hl] at hidx
      rw [List.length_map, if_neg (not_not.2 hidx.1), hs idx hidx])
  rw [hl] at r3
  refine ⟨r, r1, ⟨r3, ?_⟩, r2, r4, r5⟩
  intro idx hidx
  rw [r7 idx hidx]
  cases preserve <;> simp

end

/-- A field with an uneven axis. -/
def fieldUnevenAxis : Field ℚ ℚ :=
  ⟨"f", "", ⟨[3, 4], fun idx => 10 * idx.getD 0 0 + idx.getD 1 0⟩, [unevenAxis, uniformAxis 0 4 4],
    [some false, some false], [none, none]⟩

example : ((fieldUnevenAxis.mapCoordinates (Interp.interp linearWeights 1 .constant 0)
    fieldUnevenAxis.axes none true).map fun r => (values r, r.axes)) =
      .ok (values fieldUnevenAxis, fieldUnevenAxis.axes) := by
  decide +kernel

/-- A field with two cells of different size. -/
def fieldTwoUneven : Field ℚ ℚ :=
  ⟨"f", "", ⟨[2], fun idx => 10 * idx.getD 0 0 + 5⟩, [⟨"x", "", [0, 1, 3], [1 / 2, 2], (0, 3)⟩],
    [some false], [none]⟩

/-- Interpolating this field on its own grid changes the data: the first value is lost. -/
theorem map_coordinates_same_grid_violated :
    ((fieldTwoUneven.mapCoordinates (Interp.interp linearWeights 1 .constant 0)
      fieldTwoUneven.axes none true).map values) = .ok [0, 40 / 3] ∧ values fieldTwoUneven = [5, 15] := by
  refine ⟨?_, ?_⟩ <;> decide +kernel

/-! ### Polar coordinates -/

/-- C60: `topolar` of a two dimensional field with cells of equal size. The axes of the result are the
angle and the radius, with the wanted numbers of points between the ends of the extent. The value at an
angle and a radius is the interpolated value at the cartesian point, turned back by the offset, times the
radius if the integral is to be preserved. -/
theorem topolar_value (spl : Splines ℝ) (hspl : ExactOnEven spl) (sample : Arr ℝ → List ℝ → Res ℝ)
    (f : Field ℝ ℝ) (hf : f.Sound) (ax ay : Axis ℝ) (hax : f.axes = [ax, ay]) (x0 y0 hx hy : ℝ)
    (hhx : hx ≠ 0) (hhy : hy ≠ 0) (hex : EvenAxis ax x0 hx) (hey : EvenAxis ay y0 hy)
    (S : List ℝ → ℝ) (hS : ∀ px, px.length = 2 → sample f.matrix px = .ok (S px))
    (t0 t1 r0 r1 : ℝ) (ht : t0 < t1) (hr : r0 < r1) (n m : ℕ) (hn : 2 ≤ n) (hm : 2 ≤ m) (off : ℝ)
    (preserve : Bool) :
    ∃ r t rr, f.topolar spl sample (some ((t0, t1), some (r0, r1))) (some ((n : ℤ), (m : ℤ))) off preserve =
        .ok r ∧ r.shape = [n, m] ∧ r.axes = [t, rr] ∧
      t.name = "theta" ∧ t.unit = "rad" ∧
      rr.name = (if ax.name.startsWith "k" then "k" else "r") ∧ rr.unit = ax.unit ∧
      (∀ i < n, t.grid[i]? = some (t0 + i * ((t1 - t0) / (n - 1 : ℕ)))) ∧
      (∀ j < m, rr.grid[j]? = some (r0 + j * ((r1 - r0) / (m - 1 : ℕ)))) ∧
      ∀ (i j : ℕ) (th rho x y : ℝ), t.grid[i]? = some th → rr.grid[j]? = some rho →
        x = rho * Real.cos (th - off) → y = rho * Real.sin (th - off) →
        r.matrix.at' [i, j] = (if preserve then rho else 1) *
          S [(x - x0) / hx - 1 / 2, (y - y0) / hy - 1 / 2] := by
  have hlen : 0 < ax.len ∧ 0 < ay.len := by
    have h1 := hf.ok.lengths
    have h2 := hf.nonempty
    rw [hax] at h1
    rw [← h1] at h2
    simp only [List.map_cons, List.map_nil, List.mem_cons, List.not_mem_nil, or_false, not_or] at h2
    exact ⟨Nat.pos_of_ne_zero (Ne.symm h2.1), Nat.pos_of_ne_zero (Ne.symm h2.2)⟩
  obtain ⟨r, t, rr, h1, h2, h3, h4, h5, h6, h7, h8, h9, h10⟩ := topolar_ok hspl sample hf hax
    (extent := some ((t0, t1), some (r0, r1))) (shape := some ((n : ℤ), (m : ℤ))) rfl ht hr rfl hn hm off preserve
    (even_index hex hhx hlen.1) (even_index hey hhy hlen.2) hS
  refine ⟨r, t, rr, h1, h2, h3, h4, h5, h7, h8, ?_, ?_, ?_⟩
  · intro i hi
    rw [h6, linspace_get _ _ _ _ hi]
  · intro j hj
    rw [h9, linspace_get _ _ _ _ hj]
  · intro i j th rho x y hi hj hxx hyy
    rw [h10 i j th rho hi hj, hxx, hyy]

/-- C60: the default extent of `topolar` covers the field: all angles, and the distance of each grid point
from the origin lies between the ends of the radial axis. -/
theorem topolar_default_extent (f : Field ℝ ℝ) (ax ay : Axis ℝ) (hax : f.axes = [ax, ay])
    (hx : ax.grid ≠ []) (hy : ay.grid ≠ []) :
    ∃ r0 r1, f.polarExtent none = .ok ((-Real.pi, Real.pi), (r0, r1)) ∧
      ∀ x ∈ ax.grid, ∀ y ∈ ay.grid, r0 ≤ (Polar.linear2polar x y).2 ∧ (Polar.linear2polar x y).2 ≤ r1 ∧
        -Real.pi ≤ (Polar.linear2polar x y).1 ∧ (Polar.linear2polar x y).1 ≤ Real.pi := by
  obtain ⟨lo0, hi0, e0⟩ := absRange_ok hx
  obtain ⟨lo1, hi1, e1⟩ := absRange_ok hy
  obtain ⟨p0, q0, s0⟩ := absRange_spec e0
  obtain ⟨p1, q1, s1⟩ := absRange_spec e1
  refine ⟨Real.sqrt (lo0 ^ 2 + lo1 ^ 2), Real.sqrt (hi0 ^ 2 + hi1 ^ 2), ?_, ?_⟩
  · unfold Field.polarExtent
    have g0 : pyGet f.axes 0 = .ok ax := by rw [hax]; rfl
    have g1 : pyGet f.axes 1 = .ok ay := by rw [hax]; rfl
    simp only [g0, g1, e0, e1, bind, Except.bind, pure, Except.pure]
  · intro x hx y hy
    obtain ⟨a1, a2⟩ := s0 x hx
    obtain ⟨b1, b2⟩ := s1 y hy
    have hr := Polar.arctan2_range x y
    refine ⟨?_, ?_, hr.1.le, hr.2⟩
    · apply Real.sqrt_le_sqrt
      rw [← sq_abs x, ← sq_abs y]
      gcongr
    · apply Real.sqrt_le_sqrt
      rw [← sq_abs x, ← sq_abs y]
      gcongr

/-- A field with two dimensions for which the theorems on polar coordinates apply. -/
noncomputable def fieldPolar : Field ℝ ℝ :=
  ⟨"f", "", ⟨[3, 2], fun idx => idx.getD 0 0 + 10 * idx.getD 1 0⟩,
    [evenAxisOf "x" "m" (-3) 2 3, evenAxisOf "y" "m" (-1) 1 2], [some false, some false], [none, none]⟩

example : fieldPolar.Sound ∧ EvenAxis (evenAxisOf "x" "m" (-3 : ℝ) 2 3) (-3) 2 ∧
    EvenAxis (evenAxisOf "y" "m" (-1 : ℝ) 1 2) (-1) 1 ∧
    ∀ px : List ℝ, px.length = 2 → ∃ v,
      Interp.interp linearWeights 1 .constant 0 fieldPolar.matrix px = .ok v := by
  refine ⟨⟨⟨?_, rfl, rfl⟩, ?_, ?_⟩, evenAxisOf_even _ _ _ _ _, evenAxisOf_even _ _ _ _ _, ?_⟩
  · simp [fieldPolar, evenAxisOf, Axis.len, Field.shape, ap]
  · intro a ha
    simp only [fieldPolar, List.mem_cons, List.not_mem_nil, or_false] at ha
    rcases ha with rfl | rfl
    · exact even_valid (evenAxisOf_even _ _ _ _ _) (by norm_num)
    · exact even_valid (evenAxisOf_even _ _ _ _ _) (by norm_num)
  · simp [fieldPolar, Field.shape]
  · intro px hpx
    by_cases h : List.Forall₂ Interp.Inside fieldPolar.matrix.shape px
    · exact ⟨_, (interp_linear _ 0 px (by rw [hpx]; rfl)).1 h _⟩
    · exact ⟨_, (interp_linear _ 0 px (by rw [hpx]; rfl)).2 h⟩

end Postpic.Props
