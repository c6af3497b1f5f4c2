import Verif.Lemmas.Calculus
import Verif.Props.FieldReduce
import Verif.Props.CreateField
import Verif.Props.MapCoordinates

/-!
# C65, C66: the default integration and the derivative of fields
-/

set_option autoImplicit false
set_option linter.unusedSectionVars false

namespace Postpic.Props

open Postpic Postpic.Axes Postpic.Fields Postpic.Spec

section
variable {K V : Type} [_root_.Field K] [LinearOrder K] [IsStrictOrderedRing K] [AddCommGroup V]
  [Module K V]

/-- C65: integration with a rule for lines of data (the default or any other) applies the rule along
the given dimensions, with the grid points of each as positions, and keeps the axes of the others.
Without a list of axes all are integrated. Partial: the dimensions are given by different numbers
which are not negative (see `integrate_default_negative_violated`). -/
theorem integrate_method_partial (rule : List K → List V → V) (f : Field K V) (hf : f.Sound)
    (axes : Option (List ℤ)) (dims : List ℕ)
    (hax : axes = some (dims.map Int.ofNat) ∨ axes = none ∧ dims = List.range f.shape.length)
    (hn : dims.Nodup) (hd : ∀ i ∈ dims, i < f.shape.length) :
    ∃ r, f.integrateMethod rule axes = .ok r ∧ r.name = f.name ∧ r.unit = f.unit ∧
      r.shape = unflagged (flags f.shape.length dims) f.shape ∧
      r.axes = unflagged (flags f.shape.length dims) f.axes ∧
      r.ats = unflagged (flags f.shape.length dims) f.ats ∧
      r.tao = unflagged (flags f.shape.length dims) f.tao ∧
      ∀ idx, idx.length = r.shape.length → r.matrix.at' idx =
        iterated rule (f.axes.map Axis.grid) (flags f.shape.length dims) f.matrix.at' idx := by
  have e : axes.getD f.rangeDims = dims.map Int.ofNat := by
    rcases hax with rfl | ⟨rfl, rfl⟩
    · rfl
    · show f.rangeDims = _
      unfold Field.rangeDims
      rw [dims_sound hf, Int.toNat_natCast]
  obtain ⟨M, h1, h2, h3⟩ := sortDesc_nat hn
  obtain ⟨r, g1, _, g3, g4, g5, g6, g7, g8, g9⟩ := methodLoop_sound rule hf h2
    (fun i hi => hd i ((h3 i).1 hi))
  rw [flags_congr h3] at g5 g6 g7 g8 g9
  refine ⟨r, ?_, g3, g4, g5, g6, g7, g8, g9⟩
  unfold Field.integrateMethod
  rw [e, h1, g1]

/-- C65: along a single axis, also counted from the end, the default integral is Simpson's rule for
every line of data. -/
theorem integrate_default_axis (f : Field K V) (hf : f.Sound) (a : ℤ) (k : ℕ) (ax : Axis K)
    (ha : pyIdx f.shape.length a = some k) (hax : f.axes[k]? = some ax) :
    ∃ r, f.integrateDefault (some [a]) = .ok r ∧ r.name = f.name ∧ r.unit = f.unit ∧
      r.shape = f.shape.eraseIdx k ∧ r.axes = f.axes.eraseIdx k ∧ r.ats = f.ats.eraseIdx k ∧
      r.tao = f.tao.eraseIdx k ∧
      ∀ idx, r.matrix.at' idx =
        simpson ax.grid ((List.range ax.len).map fun i => f.matrix.at' (idx.insertIdx k i)) := by
  obtain ⟨r, h1, _, h3, h4, h5, h6, h7, h8, h9⟩ := methodStep_sound simpson hf ha
  refine ⟨r, ?_, h3, h4, h5, h6, h7, h8, ?_⟩
  · unfold Field.integrateDefault Field.integrateMethod
    have : sortDesc ((some [a]).getD f.rangeDims) = [a] := rfl
    rw [this]
    simp only [methodLoop, h1, bind, Except.bind]
  · intro idx
    rw [h9, List.getD_eq_getElem?_getD, List.getElem?_map, hax]
    rfl

/-- C65: Simpson's rule is the integral of the parabolas through three neighbouring points: for an
odd number of points those through points 0 to 2, 2 to 4, ...; for an even number the last interval
is integrated with the parabola through the last three points; for two points with the straight
line. -/
theorem simpson_value (x : List K) (y : List V) (hn : x.Nodup) (hl : y.length = x.length) :
    (∀ m, x.length = 2 * m + 1 → ∀ c : ℕ → Parabola V,
      (∀ j < m, (c j).Through x y [2 * j, 2 * j + 1, 2 * j + 2]) →
      simpson x y = ∑ j ∈ Finset.range m, (c j).integral (x.getD (2 * j) 0) (x.getD (2 * j + 2) 0)) ∧
    (∀ m, x.length = 2 * m + 4 → ∀ (c : ℕ → Parabola V) (d : Parabola V),
      (∀ j < m + 1, (c j).Through x y [2 * j, 2 * j + 1, 2 * j + 2]) →
      d.Through x y [2 * m + 1, 2 * m + 2, 2 * m + 3] →
      simpson x y = ∑ j ∈ Finset.range (m + 1), (c j).integral (x.getD (2 * j) 0) (x.getD (2 * j + 2) 0) +
        d.integral (x.getD (2 * m + 2) 0) (x.getD (2 * m + 3) 0)) ∧
    (x.length = 2 → ∀ c : Parabola V, c.r = 0 → c.Through x y [0, 1] →
      simpson x y = c.integral (x.getD 0 0) (x.getD 1 0)) :=
  ⟨fun _ h c hc => simpson_odd h (hl.trans h) hn c hc,
    fun _ h c d hc hd => simpson_even h (hl.trans h) hn c d hc hd,
    fun h c hr hc => simpson_two h (hl.trans h) c hr hc⟩

/-- C65: the trapezoidal rule (a possible choice of `method`) is the integral of the straight lines between
neighbouring points. -/
theorem trapezoid_value (x : List K) (y : List V) (m : ℕ) (hx : x.length = m + 1) (hl : y.length = x.length)
    (c : ℕ → Parabola V) (hr : ∀ j < m, (c j).r = 0) (hc : ∀ j < m, (c j).Through x y [j, j + 1]) :
    trapezoid x y = ∑ j ∈ Finset.range m, (c j).integral (x.getD j 0) (x.getD (j + 1) 0) :=
  trapezoid_sum hx (hl.trans hx) c hr hc

example : trapezoid [(0 : ℚ), 1, 4] [(1 : ℚ), 3, 6] = 31 / 2 ∧
    (⟨1, 2, 0⟩ : Parabola ℚ).Through [(0 : ℚ), 1, 4] [(1 : ℚ), 3, 6] [0, 1] ∧
    (⟨2, 1, 0⟩ : Parabola ℚ).Through [(0 : ℚ), 1, 4] [(1 : ℚ), 3, 6] [1, 2] := by
  refine ⟨by decide +kernel, ?_, ?_⟩ <;> simp [Parabola.Through, Parabola.value] <;> norm_num

/-- C65: if the field is a parabola along an axis with three or more points (with coefficients which
depend on the position along the other axes), the default integral is exact between the first and the
last grid point, for rising and falling axes with equal or different cells. Partial: the outer halves
of the first and the last cell are not included (see `integrate_default_total_violated`). -/
theorem integrate_default_exact_partial (f : Field K V) (hf : f.Sound) (a : ℤ) (k : ℕ) (ax : Axis K)
    (ha : pyIdx f.shape.length a = some k) (hax : f.axes[k]? = some ax) (h3 : 3 ≤ ax.len)
    (c : List ℕ → Parabola V)
    (hc : ∀ idx, InBounds (f.shape.eraseIdx k) idx → ∀ (i : ℕ) (x : K), ax.grid[i]? = some x →
      f.matrix.at' (idx.insertIdx k i) = (c idx).value x) :
    ∃ r, f.integrateDefault (some [a]) = .ok r ∧ r.shape = f.shape.eraseIdx k ∧
      r.axes = f.axes.eraseIdx k ∧
      ∀ idx, InBounds r.shape idx → ∀ (x0 x1 : K), ax.grid.head? = some x0 → ax.grid.getLast? = some x1 →
        r.matrix.at' idx = (c idx).integral x0 x1 := by
  obtain ⟨r, h1, _, _, h4, h5, _, _, h8⟩ := integrate_default_axis f hf a k ax ha hax
  refine ⟨r, h1, h4, h5, ?_⟩
  intro idx hidx x0 x1 hx0 hx1
  have hv := hf.valid ax (List.mem_of_getElem? hax)
  have hg : 3 ≤ ax.grid.length := h3
  have e : ((List.range ax.len).map fun i => f.matrix.at' (idx.insertIdx k i)) =
      ax.grid.map (c idx).value := by
    apply List.ext_getElem?
    intro i
    rw [List.getElem?_map, List.getElem?_map]
    by_cases hi : i < ax.grid.length
    · rw [List.getElem?_range (show i < ax.len from hi), List.getElem?_eq_getElem hi]
      simp only [Option.map_some]
      rw [hc idx (h4 ▸ hidx) i _ (List.getElem?_eq_getElem hi)]
    · rw [List.getElem?_eq_none (by simpa [Axis.len] using hi), List.getElem?_eq_none (by omega)]
      rfl
  rw [h8, e, simpson_exact hg (grid_nodup hv)]
  congr 1
  · rw [List.getD_eq_getElem?_getD, ← List.head?_eq_getElem?, hx0]
    rfl
  · rw [List.getD_eq_getElem?_getD, ← List.getLast?_eq_getElem?, hx1]
    rfl

/-- C66: the derivative along an axis is, at a point with neighbours on both sides, the slope of the
parabola through the three points; the axes stay. At the first and the last point it is the slope of the
line through the two outer points (for a parabola: its slope half way between them). Partial: the
derivative is not of second order there (see `gradient_border_violated`). -/
theorem gradient_partial (f : Field K V) (hf : f.Sound) (a : ℤ) (k : ℕ) (ax : Axis K)
    (ha : pyIdx f.shape.length a = some k) (hax : f.axes[k]? = some ax) (h2 : 2 ≤ ax.len) :
    ∃ r, f.derivative a = .ok r ∧ r.shape = f.shape ∧ r.axes = f.axes ∧ r.ats = f.ats ∧ r.tao = f.tao ∧
      ∀ idx, InBounds f.shape idx → ∀ c : Parabola V,
        (∀ i, idx[k]? = some (i + 1) → i + 2 < ax.len →
          (∀ j ∈ [i, i + 1, i + 2], ∀ x, ax.grid[j]? = some x → f.matrix.at' (idx.set k j) = c.value x) →
          ∀ x, ax.grid[i + 1]? = some x → r.matrix.at' idx = c.slope x) ∧
        (∀ i j x y, (i = 0 ∧ j = 1 ∧ idx[k]? = some i ∨ j + 1 = ax.len ∧ i + 2 = ax.len ∧ idx[k]? = some j) →
          ax.grid[i]? = some x → ax.grid[j]? = some y →
          f.matrix.at' (idx.set k i) = c.value x → f.matrix.at' (idx.set k j) = c.value y →
          r.matrix.at' idx = c.q + (x + y) • c.r) := by
  refine ⟨_, derivative_ok hf ha hax h2, rfl, rfl, rfl, rfl, ?_⟩
  have hn := grid_nodup (hf.valid ax (List.mem_of_getElem? hax))
  have h2' : 2 ≤ ax.grid.length := h2
  have hD : ∀ {i : ℕ} {x : K}, ax.grid[i]? = some x → ax.grid.getD i 0 = x := by
    intro i x h
    rw [List.getD_eq_getElem?_getD, h]
    rfl
  intro idx hidx c
  constructor
  · intro i hi hi2 hv x hx
    have hi2' : i + 2 < ax.grid.length := hi2
    have hk : idx.getD k 0 = i + 1 := by rw [List.getD_eq_getElem?_getD, hi]; rfl
    have hp : ∀ j ∈ [i, i + 1, i + 2], f.matrix.at' (idx.set k j) = c.value (ax.grid.getD j 0) := by
      intro j hj
      have hjl : j < ax.grid.length := by
        simp only [List.mem_cons, List.not_mem_nil, or_false] at hj
        omega
      rw [hv j hj _ (List.getElem?_eq_getElem hjl), List.getD_eq_getElem _ _ hjl]
    show gradientAt ax.grid _ _ (idx.getD k 0) = _
    rw [hk, gradient_inner hn hi2' _ c (hp i (by simp)) (hp (i + 1) (by simp)) (hp (i + 2) (by simp)), hD hx]
  · intro i j x y hij hx hy h0 h1
    show gradientAt ax.grid _ _ (idx.getD k 0) = _
    rcases hij with ⟨rfl, rfl, hi⟩ | ⟨hj, hi, hk⟩
    · have hk : idx.getD k 0 = 0 := by rw [List.getD_eq_getElem?_getD, hi]; rfl
      rw [hk, gradient_first hn h2' _ c (by rw [hD hx]; exact h0) (by rw [hD hy]; exact h1), hD hx, hD hy]
    · have hlen : ax.len = ax.grid.length := rfl
      obtain rfl : j = ax.grid.length - 1 := by omega
      obtain rfl : i = ax.grid.length - 2 := by omega
      have hk : idx.getD k 0 = ax.grid.length - 1 := by rw [List.getD_eq_getElem?_getD, hk]; rfl
      rw [hk, gradient_last hn h2' _ c (by rw [hD hx]; exact h0) (by rw [hD hy]; exact h1), hD hx, hD hy]

/-- C66: the derivative of a sum of multiples of fields. -/
theorem gradient_linear (f g h : Field K V) (hf : f.Sound) (hg : g.Sound) (hh : h.Sound)
    (hfg : g.axes = f.axes) (hfh : h.axes = f.axes) (c d : K)
    (hval : ∀ idx, InBounds f.shape idx →
      h.matrix.at' idx = c • f.matrix.at' idx + d • g.matrix.at' idx)
    (a : ℤ) (k : ℕ) (ax : Axis K) (ha : pyIdx f.shape.length a = some k) (hax : f.axes[k]? = some ax)
    (h2 : 2 ≤ ax.len) :
    ∃ rf rg rh, f.derivative a = .ok rf ∧ g.derivative a = .ok rg ∧ h.derivative a = .ok rh ∧
      ∀ idx, InBounds f.shape idx →
        rh.matrix.at' idx = c • rf.matrix.at' idx + d • rg.matrix.at' idx := by
  have sg : g.shape = f.shape := by rw [← hg.ok.lengths, ← hf.ok.lengths, hfg]
  have sh : h.shape = f.shape := by rw [← hh.ok.lengths, ← hf.ok.lengths, hfh]
  refine ⟨_, _, _, derivative_ok hf ha hax h2,
    derivative_ok hg (by rw [sg]; exact ha) (by rw [hfg]; exact hax) h2,
    derivative_ok hh (by rw [sh]; exact ha) (by rw [hfh]; exact hax) h2, ?_⟩
  intro idx hidx
  have hl := hidx.1
  have hk := pyIdx_lt ha
  have hs : f.shape[k]? = some ax.grid.length := by
    rw [← hf.ok.lengths, List.getElem?_map, hax]
    rfl
  have hset : ∀ j, j < ax.grid.length → InBounds f.shape (idx.set k j) := by
    intro j hj
    refine ⟨by rw [List.length_set]; exact hl, ?_⟩
    intro e i n hi hn
    rw [List.getElem?_set] at hi
    split_ifs at hi with h1 h2
    · subst h1
      rw [hs] at hn
      cases hi
      cases hn
      exact hj
    · exact hidx.2 e i n hi hn
  have hlin : ∀ j, j < ax.grid.length → h.matrix.at' (idx.set k j) =
      c • f.matrix.at' (idx.set k j) + d • g.matrix.at' (idx.set k j) :=
    fun j hj => hval _ (hset j hj)
  have hi : idx.getD k 0 < ax.grid.length := by
    have : k < idx.length := by omega
    rw [List.getD_eq_getElem _ _ this]
    exact hidx.2 k _ _ (List.getElem?_eq_getElem this) hs
  have h2' : 2 ≤ ax.grid.length := h2
  show gradientAt ax.grid _ _ _ = c • gradientAt ax.grid _ _ _ + d • gradientAt ax.grid _ _ _
  generalize idx.getD k 0 = i at hi
  unfold gradientAt
  split_ifs with h0
  · unfold gradientEven
    split_ifs with h1 h3
    · simp only
      rw [hlin _ (by omega), hlin _ (by omega)]
      module
    · simp only
      rw [hlin _ (by omega), hlin _ (by omega)]
      module
    · simp only
      rw [hlin _ (by omega), hlin _ (by omega)]
      module
  · unfold gradientUneven
    split_ifs with h1 h3
    · simp only
      rw [hlin _ (by omega), hlin _ (by omega)]
      module
    · simp only
      rw [hlin _ (by omega), hlin _ (by omega)]
      module
    · simp only
      rw [hlin _ (by omega), hlin _ (by omega), hlin _ (by omega)]
      module

end

/-! ### Examples -/

/-- `x²` on an axis with different cells. -/
def fieldSquare : Field ℚ ℚ :=
  ⟨"f", "", ⟨[3], fun idx => (unevenAxis.grid.getD (idx.getD 0 0) 0) ^ 2⟩, [unevenAxis], [some false], [none]⟩

theorem fieldSquare_sound : fieldSquare.Sound := by
  refine ⟨⟨by decide, by decide, by decide⟩, ?_, by decide⟩
  intro ax hax
  have : ax = unevenAxis := by simpa [fieldSquare] using hax
  subst this
  refine ⟨⟨rfl, Or.inl ?_⟩, rfl, rfl⟩
  intro i a g b ha hg hb
  match i, ha, hg, hb with
  | 0, ha, hg, hb =>
    simp [unevenAxis] at ha hg hb
    subst ha hg hb
    norm_num
  | 1, ha, hg, hb =>
    simp [unevenAxis] at ha hg hb
    subst ha hg hb
    norm_num
  | 2, ha, hg, hb =>
    simp [unevenAxis] at ha hg hb
    subst ha hg hb
    norm_num
  | i + 3, ha, hg, hb => simp [unevenAxis] at hg

/-- The integral of `x²` from 1/2 to 5. -/
example : ∃ r, fieldSquare.integrateDefault (some [-1]) = .ok r ∧ r.matrix.at' [] = (5 ^ 3 - (1 / 2) ^ 3) / 3 := by
  obtain ⟨r, h1, h2, _, h4⟩ := integrate_default_exact_partial fieldSquare fieldSquare_sound (-1) 0 unevenAxis rfl rfl
    (by decide) (fun _ => ⟨0, 0, 1⟩) (by
      intro idx hidx i x hx
      have : idx = [] := List.length_eq_zero_iff.1 hidx.1
      subst this
      have : unevenAxis.grid.getD i 0 = x := by rw [List.getD_eq_getElem?_getD, hx]; rfl
      show (unevenAxis.grid.getD i 0) ^ 2 = _
      rw [this]
      simp [Parabola.value])
  refine ⟨r, h1, ?_⟩
  rw [h4 [] (by rw [h2]; exact ⟨rfl, by simp⟩) (1 / 2) 5 rfl rfl]
  norm_num [Parabola.integral]

example : (fieldSquare.integrateDefault none).map (fun r => (r.shape, values r)) =
    .ok ([], [(5 ^ 3 - (1 / 2) ^ 3) / 3]) := by
  decide +kernel

/-- The slopes of `x²` at 1/2, 2 and 5: exact inside, half way between the points at the border. -/
example : (fieldSquare.derivative 0).map (fun r => (r.name, values r)) = .ok ("f'", [5 / 2, 4, 7]) := by
  decide +kernel

example : ∃ r, fieldSquare.derivative (-1) = .ok r ∧ r.matrix.at' [1] = 4 := by
  obtain ⟨r, h1, _, _, _, _, h6⟩ := gradient_partial fieldSquare fieldSquare_sound (-1) 0 unevenAxis rfl rfl (by decide)
  refine ⟨r, h1, ?_⟩
  rw [(h6 [1] (inBounds_cons.2 ⟨by decide, rfl, by simp⟩) ⟨0, 0, 1⟩).1 0 rfl (by decide) (by
    intro j hj x hx
    have : unevenAxis.grid.getD j 0 = x := by rw [List.getD_eq_getElem?_getD, hx]; rfl
    show (unevenAxis.grid.getD j 0) ^ 2 = _
    rw [this]
    simp [Parabola.value]) 2 rfl]
  norm_num [Parabola.slope]

example := gradient_linear field43 field43 { field43 with matrix := ⟨[4, 3], fun idx => 5 * field43.matrix.at' idx⟩ }
  field43_sound field43_sound ⟨field43_sound.ok, field43_sound.valid, field43_sound.nonempty⟩ rfl rfl 2 3
  (by intro idx _; simp only [smul_eq_mul]; ring) (-1) 1 (uniformAxis 0 6 3) rfl rfl (by decide)

/-- Four points: the even number of points and the correction of the last interval. -/
example : (field43.integrateDefault (some [0])).map (fun r => (r.shape, values r)) =
    .ok ([3], [450, 453, 456]) := by
  decide +kernel

/-! ### Violations -/

/-- C65 fails for several negative numbers: the integral over the last two axes is the one over the first
and the last axis; and an axis which is given twice makes another axis disappear. -/
theorem integrate_default_negative_violated :
    ((field222.integrateDefault (some [-2, -1])).map fun r => (values r, r.axes.map (·.extent))) ≠
      ((field222.integrateDefault (some [1, 2])).map fun r => (values r, r.axes.map (·.extent))) ∧
    ((field222.integrateDefault (some [-2, -1])).map fun r => r.axes.map (·.extent)) = .ok [(0, 20)] ∧
    ((field222.integrateDefault (some [0, 0])).map fun r => r.axes.map (·.extent)) = .ok [(0, 200)] := by
  decide +kernel

/-- C65, C63 fail: the default integral of a distribution function of particles is not the sum of the weights
(2 and 3) if particles lie in the outer cells, although they are inside; the other two methods are right. -/
theorem integrate_default_total_violated :
    (Particles.createField midSplines (fun _ => 1 / 1000) twoParticles ["x"]
      { rangex := some (some 1, some 4), bins := .int 3, shape := some 0 }).bind (fun F => do
        let r ← F.field.integrateDefault none
        let r' ← F.field.integrateFast [0]
        return (r.matrix.at' [], r'.matrix.at' [])) = .ok (14 / 3, 5) := by
  decide +kernel

/-- C65 fails for an axis with a single cell: the default integral is zero, the other methods multiply by the
size of the cell. -/
theorem integrate_default_single_violated :
    ((⟨"f", "", ⟨[1], fun _ => 3⟩, [uniformAxis 0 2 1], [some false], [none]⟩ : Field ℚ ℚ).integrateDefault none).map
        values = .ok [0] ∧
    ((⟨"f", "", ⟨[1], fun _ => 3⟩, [uniformAxis 0 2 1], [some false], [none]⟩ : Field ℚ ℚ).integrateFast [0]).map
        values = .ok [6] := by
  decide +kernel

/-- C66 fails at the border: the documentation promises the second order accurate derivative, which is exact
for parabolas; the slope of `x²` at 1/2 is 1, not 5/2. -/
theorem gradient_border_violated :
    (fieldSquare.derivative 0).map (fun r => r.matrix.at' [0]) = .ok (5 / 2) ∧
      (⟨0, 0, 1⟩ : Parabola ℚ).slope (1 / 2 : ℚ) = 1 ∧
      ∀ i x, unevenAxis.grid[i]? = some x → fieldSquare.matrix.at' [i] = (⟨0, 0, 1⟩ : Parabola ℚ).value x := by
  refine ⟨by decide +kernel, by norm_num [Parabola.slope], ?_⟩
  intro i x hx
  have : unevenAxis.grid.getD i 0 = x := by rw [List.getD_eq_getElem?_getD, hx]; rfl
  show (unevenAxis.grid.getD i 0) ^ 2 = _
  rw [this]
  simp [Parabola.value]

end Postpic.Props
