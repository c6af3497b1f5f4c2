import Verif.Lemmas.SplineData
import Verif.Props.Interp
import Verif.Props.MapComplex

/-!
# C110: interpolation with splines
-/

set_option autoImplicit false
set_option linter.unusedSectionVars false

namespace Postpic.Props

open Postpic Postpic.Axes Postpic.Fields Postpic.Spec Postpic.Interp

noncomputable section

/-- Coefficients of a spline through the data: its value at every point of the array is the stored value. -/
def Through (order : ℕ) (a : Arr ℝ) (c : List ℕ → ℝ) : Prop :=
  ∀ idx, InBounds a.shape idx → splineAt order a.shape c (idx.map fun (i : ℕ) => (i : ℝ)) = a.at' idx

/-- C110: a sample inside of the array is the value of the spline of the wanted degree through the data, mirrored at the borders; and
outside of the array it is `cval` in the default mode. Here for any coefficients of a spline through the data. -/
theorem spline_value (order : ℕ) (ho : order ≤ 5) (mode : Mode) (cval : ℝ) (a : Arr ℝ) (cs : List ℝ)
    (hl : cs.length = a.shape.length) :
    (List.Forall₂ Inside a.shape cs → ∀ c, Through order a c →
      splineSample order mode cval a cs = .ok (splineAt order a.shape c cs)) ∧
    (¬ List.Forall₂ Inside a.shape cs → splineSample order .constant cval a cs = .ok cval) := by
  refine ⟨?_, sample_outside order cval hl⟩
  intro h c hc
  rw [sample_inside ho mode cval h]
  congr 1
  refine splineAt_congr order (inside_pos h) ?_ hl.symm
  intro idx hidx
  refine coefficients_unique ho ?_ hidx
  intro idx' hidx'
  rw [coefficients_fit ho a hidx', hc idx' hidx']

/-- C110: there is one and only one spline through the data. -/
theorem spline_unique (order : ℕ) (ho : order ≤ 5) (a : Arr ℝ) :
    (∃ c, Through order a c) ∧
    ∀ c d, Through order a c → Through order a d → ∀ idx, InBounds a.shape idx → c idx = d idx :=
  ⟨⟨coefficients order a, fun _ h => coefficients_fit ho a h⟩,
    fun _ _ hc hd _ hidx => coefficients_unique ho (fun _ h => (hc _ h).trans (hd _ h).symm) hidx⟩

/-- C110: at the points of the array the data are returned, for all orders and modes. -/
theorem spline_exact (order : ℕ) (ho : order ≤ 5) (mode : Mode) (cval : ℝ) (a : Arr ℝ) (idx : List ℕ)
    (h : InBounds a.shape idx) : splineSample order mode cval a (idx.map fun (i : ℕ) => (i : ℝ)) = .ok (a.at' idx) := by
  rw [sample_inside ho mode cval (inside_nat h), coefficients_fit ho a h]

/-- C110: samples are linear in the data. -/
theorem spline_linear (order : ℕ) (ho : order ≤ 5) (mode : Mode) (cval : ℝ) (shape : List ℕ) (f g : List ℕ → ℝ) (p q : ℝ)
    (cs : List ℝ) (h : List.Forall₂ Inside shape cs) :
    ∃ u v, splineSample order mode cval ⟨shape, f⟩ cs = .ok u ∧ splineSample order mode cval ⟨shape, g⟩ cs = .ok v ∧
      splineSample order mode cval ⟨shape, fun idx => p * f idx + q * g idx⟩ cs = .ok (p * u + q * v) := by
  refine ⟨_, _, sample_inside ho mode cval h, sample_inside ho mode cval h, ?_⟩
  have hs : Through order ⟨shape, fun idx => p * f idx + q * g idx⟩
      fun idx => p * coefficients order ⟨shape, f⟩ idx + q * coefficients order ⟨shape, g⟩ idx := by
    intro idx hidx
    have e1 := coefficients_fit ho ⟨shape, f⟩ hidx
    have e2 := coefficients_fit ho ⟨shape, g⟩ hidx
    simp only at e1 e2 ⊢
    rw [splineAt_linear, e1, e2]
  rw [(spline_value order ho mode cval _ cs h.length_eq.symm).1 h _ hs]
  simp only
  rw [splineAt_linear]

/-- C110: data which are the same everywhere are the same everywhere after the interpolation. -/
theorem spline_constant (order : ℕ) (ho : order ≤ 5) (mode : Mode) (cval v : ℝ) (shape : List ℕ) (cs : List ℝ)
    (h : List.Forall₂ Inside shape cs) : splineSample order mode cval ⟨shape, fun _ => v⟩ cs = .ok v := by
  have hs : Through order ⟨shape, fun _ => v⟩ fun _ => v := by
    intro idx hidx
    exact splineAt_const ho v (by simp [hidx.1])
  rw [(spline_value order ho mode cval _ cs h.length_eq.symm).1 h _ hs]
  simp only
  rw [splineAt_const ho v h.length_eq]

/-- C110: with the orders 0 and 1 the samples stay within the range of the data. Missing: the higher orders, see
`spline_range_violated`. -/
theorem spline_range_partial (order : ℕ) (ho : order ≤ 1) (mode : Mode) (cval lo hi : ℝ) (a : Arr ℝ) (cs : List ℝ)
    (h : List.Forall₂ Inside a.shape cs) (hr : ∀ idx, InBounds a.shape idx → lo ≤ a.at' idx ∧ a.at' idx ≤ hi) :
    ∃ v, splineSample order mode cval a cs = .ok v ∧ lo ≤ v ∧ v ≤ hi := by
  refine ⟨_, sample_inside (by omega) mode cval h, ?_⟩
  refine splineAt_bounds (by omega) (inside_pos h) ?_ h.length_eq
  intro idx hidx
  unfold coefficients
  rw [if_neg (by omega)]
  exact hr idx hidx

/-! ### An example -/

/-- Five values with a peak. -/
def peak : Arr ℝ := ⟨[5], fun idx => if idx = [2] then 1 else 0⟩

/-- The coefficients of the cubic spline. -/
def peakCoefficients (idx : List ℕ) : ℝ := ([1 / 4, -1 / 2, 7 / 4, -1 / 2, 1 / 4] : List ℝ).getD (idx.getD 0 0) 0

theorem peak_through : Through 3 peak peakCoefficients := by
  intro idx hidx
  cases idx with
  | nil => simp [InBounds, peak] at hidx
  | cons i t =>
    obtain ⟨hi, ht⟩ : i < 5 ∧ InBounds [] t := Fields.inBounds_cons.1 hidx
    obtain rfl := inBounds_nil.1 ht
    rw [List.map_cons, show peak.shape = [5] from rfl, splineAt_point (by norm_num)]
    have m0 : mirrored 5 (-2) = 2 ∧ mirrored 5 (-1) = 1 ∧ mirrored 5 0 = 0 ∧ mirrored 5 1 = 1 ∧ mirrored 5 2 = 2 ∧ mirrored 5 3 = 3 ∧
      mirrored 5 4 = 4 ∧ mirrored 5 5 = 3 ∧ mirrored 5 6 = 2 := by decide
    obtain ⟨a1, a2, a3, a4, a5, a6, a7, a8, a9⟩ := m0
    have : i = 0 ∨ i = 1 ∨ i = 2 ∨ i = 3 ∨ i = 4 := by omega
    rcases this with rfl | rfl | rfl | rfl | rfl <;>
      norm_num [atPoint, samples, splineAt, peakCoefficients, peak, a1, a2, a3, a4, a5, a6, a7, a8, a9]

/-- All hypotheses of `spline_value` hold for this array. -/
example (x : ℝ) (h0 : 0 ≤ x) (h1 : x ≤ 4) : splineSample 3 .wrap 0 peak [x] = .ok (splineAt 3 [5] peakCoefficients [x]) :=
  (spline_value 3 (by norm_num) .wrap 0 peak [x] rfl).1 (.cons ⟨h0, by push_cast; linarith⟩ .nil) _ peak_through

theorem peak_value : splineAt 3 [5] peakCoefficients [1 / 2] = -3 / 32 := by
  rw [← stencil_spline (by norm_num) rfl]
  have hc : centre 3 (1 / 2 : ℝ) = 0 := by
    unfold centre
    rw [if_pos (by norm_num), Int.floor_eq_iff]
    norm_num
  have m0 : mirrorIndex 5 (-1) = 1 ∧ mirrorIndex 5 0 = 0 ∧ mirrorIndex 5 1 = 1 ∧ mirrorIndex 5 2 = 2 := by decide
  obtain ⟨a1, a2, a3, a4⟩ := m0
  simp only [stencil, hc, list_range_sum, Finset.sum_range_succ, Finset.sum_range_zero]
  norm_num [splineWeights, firstWeights, List.range_succ, peakCoefficients, a1, a2, a3, a4]

/-- C110 violated: with the default order 3, data between 0 and 1 (a density, for example) can have negative samples. -/
theorem spline_range_violated : (∀ idx, 0 ≤ peak.at' idx ∧ peak.at' idx ≤ 1) ∧ List.Forall₂ Inside peak.shape [(1 / 2 : ℝ)] ∧
    splineSample 3 .constant 0 peak [1 / 2] = .ok (-3 / 32) := by
  have hi : List.Forall₂ Inside peak.shape [(1 / 2 : ℝ)] := by
    refine .cons ⟨by norm_num, by norm_num⟩ .nil
  refine ⟨?_, hi, ?_⟩
  · intro idx
    unfold peak
    simp only
    split_ifs <;> norm_num
  · rw [(spline_value 3 (by norm_num) .constant 0 peak [1 / 2] rfl).1 hi _ peak_through]
    exact congrArg _ peak_value

/-- C110 violated: samples of integer data are rounded. The linear interpolation half way between 0 and 1 is 1, and half way between
0 and the same number stored as a real number is 1/2. -/
theorem spline_integer_violated :
    intSample 1 .constant 0 ⟨[2], fun idx => idx.getD 0 0⟩ [1 / 2] = .ok 1 ∧
    splineSample 1 .constant 0 ⟨[2], fun idx => idx.getD 0 0⟩ [1 / 2] = .ok (1 / 2) := by
  have hi : List.Forall₂ Inside [2] [(1 / 2 : ℝ)] := .cons ⟨by norm_num, by norm_num⟩ .nil
  have hv : splineAt 1 [2] (fun idx => ((idx.getD 0 0 : ℕ) : ℝ)) [1 / 2] = 1 / 2 := by
    rw [← stencil_spline (by norm_num) rfl]
    have hc : centre 1 (1 / 2 : ℝ) = 0 := by
      unfold centre
      rw [if_pos (by norm_num), Int.floor_eq_iff]
      norm_num
    have m0 : mirrorIndex 2 0 = 0 ∧ mirrorIndex 2 1 = 1 := by decide
    simp only [stencil, hc, list_range_sum, Finset.sum_range_succ, Finset.sum_range_zero]
    norm_num [splineWeights, firstWeights, List.range_succ, m0.1, m0.2]
  have hs : splineSample 1 .constant 0 ⟨[2], fun idx => ((idx.getD 0 0 : ℕ) : ℝ)⟩ [1 / 2] = .ok (1 / 2) := by
    rw [sample_inside (by norm_num) .constant 0 hi]
    exact congrArg _ hv
  refine ⟨?_, hs⟩
  unfold intSample
  simp only [Int.cast_natCast]
  rw [hs]
  have : storedInt (1 / 2) = 1 := by
    unfold storedInt
    norm_num
  exact congrArg Except.ok this

/-! ### Threads and fields -/

/-- C110: the default call of `map_coordinates_parallel`. For every order of the writes of the threads, each output point finally has
the value of the cubic spline at its coordinates, or `cval` if these are outside of the array. -/
theorem map_coordinates_parallel_spline (input coordinates : Arr ℝ) (cval : ℝ) (chunklen : Option ℤ) (shape : List ℕ)
    (hs : coordinates.shape = input.shape.length :: shape) (h1 : input.shape ≠ []) (h2 : shape ≠ []) (h0 : 0 ∉ shape)
    (c : List ℕ → ℝ) (hc : Through 3 input c) :
    ∃ ts, tasks splineWeights splineFilter input coordinates 3 .constant cval true chunklen = .ok ts ∧
      ∀ (schedule : List (Write ℝ)) (output : List ℕ → ℝ), Interleaving ts schedule → ∀ idx, InBounds shape idx →
        (List.Forall₂ Inside input.shape (coordsAt input.shape.length coordinates idx) →
          run output schedule idx = splineAt 3 input.shape c (coordsAt input.shape.length coordinates idx)) ∧
        (¬ List.Forall₂ Inside input.shape (coordsAt input.shape.length coordinates idx) → run output schedule idx = cval) := by
  obtain ⟨ts, t1, _, _, t4⟩ := map_coordinates_parallel_partial splineWeights splineFilter (fun _ _ => rfl) input coordinates 3
    (by norm_num) .constant cval true chunklen shape hs h1 h2 h0 (Or.inl rfl)
  refine ⟨ts, t1, ?_⟩
  intro schedule output hi idx hidx
  have hv := (t4 schedule output hi idx).1 hidx
  have hl : (coordsAt input.shape.length coordinates idx).length = input.shape.length := by simp [coordsAt]
  obtain ⟨v1, v2⟩ := spline_value 3 (by norm_num) .constant cval input _ hl
  have e : splineSample 3 .constant cval input (coordsAt input.shape.length coordinates idx) = .ok (run output schedule idx) := by
    unfold splineSample
    rw [← hv]
    rfl
  constructor
  · intro h
    have := v1 h c hc
    rw [e] at this
    exact Except.ok.inj this
  · intro h
    have := v2 h
    rw [e] at this
    exact Except.ok.inj this

example : ∃ c, Through 3 peak c ∧ (⟨[1, 4], fun _ => 1 / 2⟩ : Arr ℝ).shape = peak.shape.length :: [4] :=
  ⟨_, peak_through, rfl⟩

/-- C110: resampling a field on its own grid with any order of interpolation (3 by default) returns the same data, names and axes,
if all axes have cells of equal size or are not linear. Missing: short uneven axes, see `map_coordinates_same_grid_violated`. -/
theorem spline_same_grid_partial (order : ℕ) (ho : order ≤ 5) (mode : Mode) (cval : ℝ) (f : Field ℝ ℝ) (hf : f.Sound)
    (hax : ∀ ax ∈ f.axes, ax.isLinear = false ∨ ∃ e0 h : ℝ, h ≠ 0 ∧ EvenAxis ax e0 h) (preserve : Bool) :
    ∃ r, f.mapCoordinates (splineSample order mode cval) f.axes none preserve = .ok r ∧ r.matrix.Eqv f.matrix ∧
      r.axes = f.axes ∧ r.name = f.name ∧ r.unit = f.unit :=
  map_coordinates_same_grid_partial _ f hf hax (fun idx h => spline_exact order ho mode cval f.matrix idx h) preserve

/-- C110: the same for complex fields, whether their parts or their moduli and angles are interpolated. -/
theorem spline_same_grid_complex_partial (order : ℕ) (ho : order ≤ 5) (smode : Mode) (cval : ℝ)
    (unwrap : Option (Arr ℝ → Arr ℝ)) (hu : ∀ u, unwrap = some u → Unwraps u) (f : Field ℝ ℂ) (hf : f.Sound)
    (hax : ∀ ax ∈ f.axes, ax.isLinear = false ∨ ∃ e0 h : ℝ, h ≠ 0 ∧ EvenAxis ax e0 h)
    (mode : String) (hmode : mode ∈ ["cartesian", "polar", "polar-no-unwrap"]) (preserve : Bool) :
    ∃ r, f.mapComplex (splineSample order smode cval) unwrap f.axes none none none mode preserve = .ok r ∧
      r.matrix.Eqv f.matrix ∧ r.axes = f.axes ∧ r.name = f.name ∧ r.unit = f.unit :=
  map_complex_same_grid_partial _ (fun a idx h => spline_exact order ho smode cval a idx h) unwrap hu f hf hax mode hmode preserve

/-- A field for which these theorems hold. -/
example : fieldPolar.Sound ∧ ∀ ax ∈ fieldPolar.axes, ax.isLinear = false ∨ ∃ e0 h : ℝ, h ≠ 0 ∧ EvenAxis ax e0 h := by
  refine ⟨⟨⟨?_, rfl, rfl⟩, ?_, ?_⟩, ?_⟩
  · simp [fieldPolar, evenAxisOf, Axis.len, Field.shape, ap]
  · intro a ha
    simp only [fieldPolar, List.mem_cons, List.not_mem_nil, or_false] at ha
    rcases ha with rfl | rfl
    · exact even_valid (evenAxisOf_even _ _ _ _ _) (by norm_num)
    · exact even_valid (evenAxisOf_even _ _ _ _ _) (by norm_num)
  · simp [fieldPolar, Field.shape]
  · intro a ha
    simp only [fieldPolar, List.mem_cons, List.not_mem_nil, or_false] at ha
    rcases ha with rfl | rfl
    · exact .inr ⟨_, _, by norm_num, evenAxisOf_even _ _ _ _ _⟩
    · exact .inr ⟨_, _, by norm_num, evenAxisOf_even _ _ _ _ _⟩

end

end Postpic.Props
