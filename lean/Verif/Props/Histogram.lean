import Mathlib.Data.Rat.Floor
import Verif.Lemmas.Histogram3

/-!
# Properties of the particle deposition (C01 – C07, C52)

`spacing` is `np.spacing` (arbitrary). `Proper spacing r` says that the range is not degenerate.
`weightsOf n weights` are the weights (all 1 for `weights=None`).
-/

set_option linter.unusedSectionVars false
set_option linter.unusedVariables false

set_option autoImplicit false

namespace Postpic.Props

open Postpic Postpic.Spec Postpic.Histogram

variable {K : Type*} [Field K] [LinearOrder K] [IsStrictOrderedRing K] [FloorRing K]

/-- The usual arguments: a proper range, less than `2^31` bins, a weight for each particle. -/
structure Args1 (spacing : K → K) (data : List K) (r : K × K) (bins : ℕ)
    (weights : Option (List K)) : Prop where
  range : Proper spacing r
  bins : bins < 2 ^ 31
  weights : (weightsOf data.length weights).length = data.length

/-- The usual arguments in 2D. -/
structure Args2 (spacing : K → K) (datax datay : List K) (rx ry : K × K) (xb yb : ℕ)
    (weights : Option (List K)) : Prop where
  len : datax.length = datay.length
  rangex : Proper spacing rx
  rangey : Proper spacing ry
  binsx : xb < 2 ^ 31
  binsy : yb < 2 ^ 31
  weights : (weightsOf datax.length weights).length = datax.length

/-- The usual arguments in 3D. -/
structure Args3 (spacing : K → K) (datax datay dataz : List K) (rx ry rz : K × K) (xb yb zb : ℕ)
    (weights : Option (List K)) : Prop where
  len : datax.length = datay.length
  len' : datax.length = dataz.length
  rangex : Proper spacing rx
  rangey : Proper spacing ry
  rangez : Proper spacing rz
  binsx : xb < 2 ^ 31
  binsy : yb < 2 ^ 31
  binsz : zb < 2 ^ 31
  weights : (weightsOf datax.length weights).length = datax.length

/-! ## C52: each bin is the sum of the B-spline weights of the particles -/

theorem clear_cast {s : Shape} {n : ℕ} (y : K) (h : Clear s n y) : s = .ngp ∨ y + 1 / 2 < (2 : K) ^ 31 := by
  by_cases hs : s = .ngp
  · exact Or.inl hs
  · exact Or.inr (h.sides hs).2

/-- Also for particles clearly outside of the range, bin `i` is `Σ_p w_p W(i + 1/2 - x_p)`, where `x_p` is the position in units of bins. -/
theorem histogram_clear (spacing : K → K) (s : Shape) (data : List K) (r : K × K) (bins : ℕ)
    (weights : Option (List K)) (ha : Args1 spacing data r bins weights)
    (hin : ∀ d ∈ data, Clear s bins (scaled r bins d)) :
    histogram spacing s data r bins weights =
      .ok (grid1 bins fun i => ((data.zip (weightsOf data.length weights)).map fun p =>
        W s ((i : K) + 1 / 2 - scaled r bins p.1) * p.2).sum, binEdges r bins) := by
  rw [histogram_closed spacing s data r bins weights ha.range ha.weights.ge,
    if_pos (fun p _ w hw => c1_inRange s ha.bins r p w hw)]
  simp only [grid1, Except.ok.injEq, Prod.mk.injEq, and_true]
  apply List.map_congr_left; intro i hi
  congr 1
  apply List.map_congr_left; intro p hp
  exact wsum_c1 ha.bins r p (hin _ (List.of_mem_zip hp).1) (List.mem_range.1 hi)

/-- 2D, also for particles clearly outside of the range: the bin is the sum of the products of the B-spline weights. -/
theorem histogram2d_clear (spacing : K → K) (s : Shape) (datax datay : List K) (rx ry : K × K)
    (xb yb : ℕ) (weights : Option (List K))
    (ha : Args2 spacing datax datay rx ry xb yb weights)
    (hx : ∀ d ∈ datax, Clear s xb (scaled rx xb d))
    (hy : ∀ d ∈ datay, Clear s yb (scaled ry yb d)) :
    histogram2d spacing s datax datay rx ry xb yb weights =
      .ok (grid2 xb yb fun i j =>
        (((datax.zip datay).zip (weightsOf datax.length weights)).map fun p =>
          W s ((i : K) + 1 / 2 - scaled rx xb p.1.1) * W s ((j : K) + 1 / 2 - scaled ry yb p.1.2)
            * p.2).sum, binEdges rx xb, binEdges ry yb) := by
  have hb : ∀ y, Clear s yb y → s = .ngp ∨ y + 1 / 2 < (2 : K) ^ 31 := clear_cast
  rw [histogram2d_closed spacing s datax datay rx ry xb yb weights ha.len ha.rangex ha.rangey
      ha.weights.ge,
    if_pos (fun p hp w hw => c2_inRange s ha.binsx ha.binsy rx ry p
      (hb _ (hy _ (List.of_mem_zip (List.of_mem_zip hp).1).2)) w hw)]
  simp only [grid2, Except.ok.injEq, Prod.mk.injEq, and_true]
  apply List.map_congr_left; intro i hi
  apply List.map_congr_left; intro j hj
  congr 1
  apply List.map_congr_left; intro p hp
  have hp' := List.of_mem_zip (List.of_mem_zip hp).1
  exact wsum_c2 ha.binsx ha.binsy rx ry p (hx _ hp'.1) (hy _ hp'.2) (List.mem_range.1 hi) (List.mem_range.1 hj)

/-- 3D, also for particles clearly outside of the range: the bin is the sum of the products of the B-spline weights. -/
theorem histogram3d_clear (spacing : K → K) (s : Shape) (datax datay dataz : List K)
    (rx ry rz : K × K) (xb yb zb : ℕ) (weights : Option (List K))
    (ha : Args3 spacing datax datay dataz rx ry rz xb yb zb weights)
    (hx : ∀ d ∈ datax, Clear s xb (scaled rx xb d))
    (hy : ∀ d ∈ datay, Clear s yb (scaled ry yb d))
    (hz : ∀ d ∈ dataz, Clear s zb (scaled rz zb d)) :
    histogram3d spacing s datax datay dataz rx ry rz xb yb zb weights =
      .ok (grid3 xb yb zb fun i j k =>
        (((datax.zip (datay.zip dataz)).zip (weightsOf datax.length weights)).map fun p =>
          W s ((i : K) + 1 / 2 - scaled rx xb p.1.1)
            * W s ((j : K) + 1 / 2 - scaled ry yb p.1.2.1)
            * W s ((k : K) + 1 / 2 - scaled rz zb p.1.2.2)
            * p.2).sum, binEdges rx xb, binEdges ry yb, binEdges rz zb) := by
  rw [histogram3d_closed spacing s datax datay dataz rx ry rz xb yb zb weights ha.len ha.len'
      ha.rangex ha.rangey ha.rangez ha.weights.ge,
    if_pos (fun p hp w hw => by
      have hp' := List.of_mem_zip (List.of_mem_zip hp).1
      have hp'' := List.of_mem_zip hp'.2
      exact c3_inRange s ha.binsx ha.binsy ha.binsz rx ry rz p
        (clear_cast _ (hy _ hp''.1))
        ((clear_cast _ (hz _ hp''.2)).imp_left (by rintro rfl; simp)) w hw)]
  simp only [grid3, Except.ok.injEq, Prod.mk.injEq, and_true]
  apply List.map_congr_left; intro i hi
  apply List.map_congr_left; intro j hj
  apply List.map_congr_left; intro k hk
  congr 1
  apply List.map_congr_left; intro p hp
  have hp' := List.of_mem_zip (List.of_mem_zip hp).1
  have hp'' := List.of_mem_zip hp'.2
  exact wsum_c3 ha.binsx ha.binsy ha.binsz rx ry rz p (hx _ hp'.1) (hy _ hp''.1) (hz _ hp''.2)
    (List.mem_range.1 hi) (List.mem_range.1 hj) (List.mem_range.1 hk)

/-- Bin `i` is `Σ_p w_p W(i + 1/2 - x_p)`, where `x_p` is the position in units of bins. -/
theorem histogram_bspline (spacing : K → K) (s : Shape) (data : List K) (r : K × K) (bins : ℕ)
    (weights : Option (List K)) (ha : Args1 spacing data r bins weights)
    (hin : ∀ d ∈ data, InRange s bins (scaled r bins d)) :
    histogram spacing s data r bins weights =
      .ok (grid1 bins fun i => ((data.zip (weightsOf data.length weights)).map fun p =>
        W s ((i : K) + 1 / 2 - scaled r bins p.1) * p.2).sum, binEdges r bins) :=
  histogram_clear spacing s data r bins weights ha fun d hd => (hin d hd).clear ha.bins

/-- 2D: the bin is the sum of the products of the B-spline weights. -/
theorem histogram2d_bspline (spacing : K → K) (s : Shape) (datax datay : List K) (rx ry : K × K)
    (xb yb : ℕ) (weights : Option (List K))
    (ha : Args2 spacing datax datay rx ry xb yb weights)
    (hx : ∀ d ∈ datax, InRange s xb (scaled rx xb d))
    (hy : ∀ d ∈ datay, InRange s yb (scaled ry yb d)) :
    histogram2d spacing s datax datay rx ry xb yb weights =
      .ok (grid2 xb yb fun i j =>
        (((datax.zip datay).zip (weightsOf datax.length weights)).map fun p =>
          W s ((i : K) + 1 / 2 - scaled rx xb p.1.1) * W s ((j : K) + 1 / 2 - scaled ry yb p.1.2)
            * p.2).sum, binEdges rx xb, binEdges ry yb) :=
  histogram2d_clear spacing s datax datay rx ry xb yb weights ha (fun d hd => (hx d hd).clear ha.binsx)
    fun d hd => (hy d hd).clear ha.binsy

/-- 3D: the bin is the sum of the products of the B-spline weights. -/
theorem histogram3d_bspline (spacing : K → K) (s : Shape) (datax datay dataz : List K)
    (rx ry rz : K × K) (xb yb zb : ℕ) (weights : Option (List K))
    (ha : Args3 spacing datax datay dataz rx ry rz xb yb zb weights)
    (hx : ∀ d ∈ datax, InRange s xb (scaled rx xb d))
    (hy : ∀ d ∈ datay, InRange s yb (scaled ry yb d))
    (hz : ∀ d ∈ dataz, InRange s zb (scaled rz zb d)) :
    histogram3d spacing s datax datay dataz rx ry rz xb yb zb weights =
      .ok (grid3 xb yb zb fun i j k =>
        (((datax.zip (datay.zip dataz)).zip (weightsOf datax.length weights)).map fun p =>
          W s ((i : K) + 1 / 2 - scaled rx xb p.1.1)
            * W s ((j : K) + 1 / 2 - scaled ry yb p.1.2.1)
            * W s ((k : K) + 1 / 2 - scaled rz zb p.1.2.2)
            * p.2).sum, binEdges rx xb, binEdges ry yb, binEdges rz zb) :=
  histogram3d_clear spacing s datax datay dataz rx ry rz xb yb zb weights ha (fun d hd => (hx d hd).clear ha.binsx)
    (fun d hd => (hy d hd).clear ha.binsy) fun d hd => (hz d hd).clear ha.binsz

/-- The hypotheses are met by two particles in a range of 4 bins. -/
example : Args1 (fun _ => (1 / 1000 : ℚ)) [1, 5 / 2] (0, 4) 4 (some [2, 3]) ∧
    ∀ d ∈ ([1, 5 / 2] : List ℚ), InRange .spline3 4 (scaled (0, 4) 4 d) := by
  refine ⟨⟨⟨by norm_num, by norm_num⟩, by norm_num, by simp [weightsOf]⟩, ?_⟩
  intro d hd
  simp at hd
  rcases hd with rfl | rfl <;> simp only [InRange, scaled] <;> norm_num

/-- Positions below, inside and above the range. -/
example : ∀ d ∈ ([-3, 1, 9 / 2, 10, -100] : List ℚ), Clear .triangle 4 (scaled (0, 4) 4 d) := by
  intro d hd
  simp at hd
  rcases hd with rfl | rfl | rfl | rfl | rfl <;> simp only [Clear, scaled] <;> norm_num

/-- A concrete value: a particle in the centre of a cell with the triangular shape puts 3/4 of
its weight there and 1/8 on each side. -/
example : histogram (fun _ => (1 / 1000 : ℚ)) .triangle [3 / 2] (0, 4) 4 none
    = .ok ([1 / 8, 3 / 4, 1 / 8, 0], [0, 1, 2, 3, 4]) := by decide +kernel

/-! ## Sums over the grid -/

theorem sum_swap {α : Type*} (l : List α) (n : ℕ) (f : ℕ → α → K) :
    ((List.range n).map fun i => (l.map fun p => f i p).sum).sum
      = (l.map fun p => ((List.range n).map fun i => f i p).sum).sum := by
  induction l with
  | nil => simp
  | cons p l ih => simp only [List.map_cons, List.sum_cons, List.sum_map_add, ih]

theorem map_snd_zip_of_length {α β : Type*} (l : List α) (m : List β) (h : m.length = l.length) :
    (l.zip m).map Prod.snd = m := List.map_snd_zip h.le

/-! ## C01: the total weight is conserved -/

/-- 1D: the bins sum up to the total weight, if all particle shapes are inside the range. -/
theorem histogram_conserves_weight (spacing : K → K) (s : Shape) (data : List K) (r : K × K)
    (bins : ℕ) (weights : Option (List K)) (ha : Args1 spacing data r bins weights)
    (hin : ∀ d ∈ data, Inside s bins (scaled r bins d)) :
    ∃ h e, histogram spacing s data r bins weights = .ok (h, e) ∧
      h.sum = (weightsOf data.length weights).sum := by
  refine ⟨_, _, histogram_bspline spacing s data r bins weights ha (fun d hd => (hin d hd).1), ?_⟩
  unfold grid1
  rw [sum_swap]
  conv_rhs => rw [← map_snd_zip_of_length data _ ha.weights]
  congr 1
  apply List.map_congr_left; intro p hp
  rw [List.sum_map_mul_right, sum_W ha.bins (hin _ (List.of_mem_zip hp).1), one_mul]

/-- 2D. -/
theorem histogram2d_conserves_weight (spacing : K → K) (s : Shape) (datax datay : List K)
    (rx ry : K × K) (xb yb : ℕ) (weights : Option (List K))
    (ha : Args2 spacing datax datay rx ry xb yb weights)
    (hx : ∀ d ∈ datax, Inside s xb (scaled rx xb d))
    (hy : ∀ d ∈ datay, Inside s yb (scaled ry yb d)) :
    ∃ h ex ey, histogram2d spacing s datax datay rx ry xb yb weights = .ok (h, ex, ey) ∧
      (h.map List.sum).sum = (weightsOf datax.length weights).sum := by
  refine ⟨_, _, _, histogram2d_bspline spacing s datax datay rx ry xb yb weights ha
    (fun d hd => (hx d hd).1) (fun d hd => (hy d hd).1), ?_⟩
  simp only [grid2, List.map_map, Function.comp_def]
  refine (congrArg List.sum (List.map_congr_left fun i _ => sum_swap _ _ _)).trans ?_
  rw [sum_swap]
  conv_rhs => rw [← map_snd_zip_of_length (datax.zip datay)
    (weightsOf datax.length weights)
    (by simpa [← ha.len] using ha.weights)]
  congr 1
  apply List.map_congr_left; intro p hp
  have hp' := List.of_mem_zip (List.of_mem_zip hp).1
  simp only [List.sum_map_mul_right, List.sum_map_mul_left]
  rw [sum_W ha.binsx (hx _ hp'.1), sum_W ha.binsy (hy _ hp'.2), one_mul, one_mul]

/-- 3D. -/
theorem histogram3d_conserves_weight (spacing : K → K) (s : Shape) (datax datay dataz : List K)
    (rx ry rz : K × K) (xb yb zb : ℕ) (weights : Option (List K))
    (ha : Args3 spacing datax datay dataz rx ry rz xb yb zb weights)
    (hx : ∀ d ∈ datax, Inside s xb (scaled rx xb d))
    (hy : ∀ d ∈ datay, Inside s yb (scaled ry yb d))
    (hz : ∀ d ∈ dataz, Inside s zb (scaled rz zb d)) :
    ∃ h ex ey ez, histogram3d spacing s datax datay dataz rx ry rz xb yb zb weights
        = .ok (h, ex, ey, ez) ∧
      (h.map fun m => (m.map List.sum).sum).sum = (weightsOf datax.length weights).sum := by
  refine ⟨_, _, _, _, histogram3d_bspline spacing s datax datay dataz rx ry rz xb yb zb weights ha
    (fun d hd => (hx d hd).1) (fun d hd => (hy d hd).1) (fun d hd => (hz d hd).1), ?_⟩
  simp only [grid3, List.map_map, Function.comp_def]
  refine (congrArg List.sum (List.map_congr_left fun i _ => (congrArg List.sum
    (List.map_congr_left fun j _ => sum_swap _ _ _)).trans (sum_swap _ _ _))).trans ?_
  rw [sum_swap]
  conv_rhs => rw [← map_snd_zip_of_length (datax.zip (datay.zip dataz))
    (weightsOf datax.length weights)
    (by simpa [← ha.len, ← ha.len'] using ha.weights)]
  congr 1
  apply List.map_congr_left; intro p hp
  have hp' := List.of_mem_zip (List.of_mem_zip hp).1
  have hp'' := List.of_mem_zip hp'.2
  simp only [List.sum_map_mul_right, List.sum_map_mul_left]
  rw [sum_W ha.binsx (hx _ hp'.1), sum_W ha.binsy (hy _ hp''.1), sum_W ha.binsz (hz _ hp''.2)]
  ring

example : ∀ d ∈ ([3 / 2, 9 / 4] : List ℚ), Inside .spline3 4 (scaled (0, 4) 4 d) := by
  intro d hd
  simp at hd
  rcases hd with rfl | rfl <;> simp only [Inside, InRange, scaled, radius] <;> norm_num

/-! ## C02: no access outside of the arrays -/

/-- 1D: for all particle positions, inside or outside the range, all accesses are inside the
arrays and the result has `bins` entries and `bins+1` edges. -/
theorem histogram_memory_safe (spacing : K → K) (s : Shape) (data : List K) (r : K × K)
    (bins : ℕ) (weights : Option (List K)) (ha : Args1 spacing data r bins weights) :
    ∃ h e, histogram spacing s data r bins weights = .ok (h, e) ∧
      h.length = bins ∧ e.length = bins + 1 := by
  rw [histogram_closed spacing s data r bins weights ha.range ha.weights.ge,
    if_pos (fun p _ w hw => c1_inRange s ha.bins r p w hw)]
  exact ⟨_, _, rfl, by simp [grid1], by simp [binEdges]⟩

/-- 2D. Missing for the full property: positions so far above the range that the cast to a 32 bit
integer overflows along `y`, see `histogram2d_memory_safe_violated`. -/
theorem histogram2d_memory_safe_partial (spacing : K → K) (s : Shape) (datax datay : List K)
    (rx ry : K × K) (xb yb : ℕ) (weights : Option (List K))
    (ha : Args2 spacing datax datay rx ry xb yb weights)
    (hy : s = .ngp ∨ ∀ d ∈ datay, scaled ry yb d + 1 / 2 < 2 ^ 31) :
    ∃ h ex ey, histogram2d spacing s datax datay rx ry xb yb weights = .ok (h, ex, ey) ∧
      h.length = xb ∧ (∀ row ∈ h, row.length = yb) ∧ ex.length = xb + 1 ∧ ey.length = yb + 1 := by
  rw [histogram2d_closed spacing s datax datay rx ry xb yb weights ha.len ha.rangex ha.rangey
      ha.weights.ge,
    if_pos (fun p hp w hw => c2_inRange s ha.binsx ha.binsy rx ry p
      (hy.imp_right fun h => h _ (List.of_mem_zip (List.of_mem_zip hp).1).2) w hw)]
  refine ⟨_, _, _, rfl, by simp [grid2], ?_, by simp [binEdges], by simp [binEdges]⟩
  intro row hrow
  simp only [grid2, List.mem_map] at hrow
  obtain ⟨i, _, rfl⟩ := hrow
  simp

/-- 3D. Missing for the full property: as in 2D, along `y`, and for the tophat shape `z`. -/
theorem histogram3d_memory_safe_partial (spacing : K → K) (s : Shape)
    (datax datay dataz : List K) (rx ry rz : K × K) (xb yb zb : ℕ) (weights : Option (List K))
    (ha : Args3 spacing datax datay dataz rx ry rz xb yb zb weights)
    (hy : s = .ngp ∨ ∀ d ∈ datay, scaled ry yb d + 1 / 2 < 2 ^ 31)
    (hz : s ≠ .tophat ∨ ∀ d ∈ dataz, scaled rz zb d + 1 / 2 < 2 ^ 31) :
    ∃ h ex ey ez, histogram3d spacing s datax datay dataz rx ry rz xb yb zb weights
        = .ok (h, ex, ey, ez) ∧
      h.length = xb ∧ (∀ m ∈ h, m.length = yb ∧ ∀ row ∈ m, row.length = zb) ∧
      ex.length = xb + 1 ∧ ey.length = yb + 1 ∧ ez.length = zb + 1 := by
  rw [histogram3d_closed spacing s datax datay dataz rx ry rz xb yb zb weights ha.len ha.len'
      ha.rangex ha.rangey ha.rangez ha.weights.ge,
    if_pos (fun p hp w hw => by
      have hp' := List.of_mem_zip (List.of_mem_zip hp).1
      have hp'' := List.of_mem_zip hp'.2
      exact c3_inRange s ha.binsx ha.binsy ha.binsz rx ry rz p
        (hy.imp_right fun h => h _ hp''.1) (hz.imp_right fun h => h _ hp''.2) w hw)]
  refine ⟨_, _, _, _, rfl, by simp [grid3], ?_, by simp [binEdges], by simp [binEdges],
    by simp [binEdges]⟩
  intro m hm
  simp only [grid3, List.mem_map] at hm
  obtain ⟨i, _, rfl⟩ := hm
  refine ⟨by simp, ?_⟩
  intro row hrow
  simp only [List.mem_map] at hrow
  obtain ⟨j, _, rfl⟩ := hrow
  simp

/-- **The code violates C02.** 2D, tophat, range `[0,1]²`, one bin per axis, a particle at
`(1/2, 2^31)`: `yr` overflows to `-2^31` and passes the test `yr <= ybins`, since the test for the
lower border uses `y` instead of `yr`. The loop then writes 2 billion cells before the array. -/
theorem histogram2d_memory_safe_violated :
    Args2 (fun _ => (1 / 1000 : ℚ)) [1 / 2] [2 ^ 31] (0, 1) (0, 1) 1 1 none ∧
    histogram2d (fun _ => (1 / 1000 : ℚ)) .tophat [1 / 2] [2 ^ 31] (0, 1) (0, 1) 1 1 none
      = .error .undefinedBehaviour :=
  ⟨⟨rfl, ⟨by norm_num, by norm_num⟩, ⟨by norm_num, by norm_num⟩, by norm_num, by norm_num, rfl⟩, by decide +kernel⟩

/-- The same in 3D for the tophat shape along `z`. -/
theorem histogram3d_memory_safe_violated :
    histogram3d (fun _ => (1 / 1000 : ℚ)) .tophat [1 / 2] [1 / 2] [2 ^ 31] (0, 1) (0, 1) (0, 1)
      1 1 1 none = .error .undefinedBehaviour := by decide +kernel

/-- **A weights array shorter than the data is read beyond its end** (no check of the lengths). -/
theorem histogram_short_weights_violated :
    histogram (fun _ => (1 / 1000 : ℚ)) .ngp [1 / 4, 3 / 4] (0, 1) 2 (some [1])
      = .error .undefinedBehaviour := by decide +kernel

/-! ## C04: order 0 equals `numpy.histogram` -/

/-- `numpy.histogram`: the bins are half open except for the last, which is closed. `x` is the
position in units of bins. -/
def NumpyBin (n i : ℕ) (x : K) : Prop := (i : K) ≤ x ∧ (x < i + 1 ∨ (i + 1 = n ∧ x = n))

/-- Order 0: bin `i` is the total weight of the particles of this bin in the sense of
`numpy.histogram`. Missing for the full property: particles exactly at the limits of the range,
see `histogram_ngp_numpy_violated`. Particles outside of the range are allowed. -/
theorem histogram_ngp_numpy_partial (spacing : K → K) (data : List K) (r : K × K) (bins : ℕ)
    (weights : Option (List K)) (ha : Args1 spacing data r bins weights)
    (hb : 0 < bins) (hends : ∀ d ∈ data, d ≠ r.1 ∧ d ≠ r.2) [∀ i x, Decidable (NumpyBin (K := K) bins i x)] :
    histogram spacing .ngp data r bins weights =
      .ok (grid1 bins fun i => (((data.zip (weightsOf data.length weights)).filter fun p =>
        decide (NumpyBin bins i (scaled r bins p.1))).map Prod.snd).sum, binEdges r bins) := by
  rw [histogram_closed spacing .ngp data r bins weights ha.range ha.weights.ge,
    if_pos (fun p _ w hw => c1_inRange .ngp ha.bins r p w hw)]
  simp only [grid1, Except.ok.injEq, Prod.mk.injEq, and_true]
  apply List.map_congr_left; intro i hi
  have hi : i < bins := List.mem_range.1 hi
  have key : ∀ p ∈ data.zip (weightsOf data.length weights),
      wsum (c1 .ngp bins r p) (((supp .ngp : ℕ) : ℤ) + i)
        = if NumpyBin bins i (scaled r bins p.1) then p.2 else 0 := by
    intro p hp
    have he := hends _ (List.of_mem_zip hp).1
    have hr : r.2 - r.1 ≠ 0 := fun h => ha.range.1 (sub_eq_zero.1 h).symm
    have hbk : (bins : K) ≠ 0 := by exact_mod_cast hb.ne'
    have h0 : scaled r bins p.1 ≠ 0 := by
      unfold scaled
      intro h
      rcases mul_eq_zero.1 h with h | h
      · rcases div_eq_zero_iff.1 h with h | h
        · exact he.1 (sub_eq_zero.1 h)
        · exact hr h
      · exact hbk h
    have h1 : scaled r bins p.1 ≠ bins := by
      unfold scaled
      intro h
      have : (p.1 - r.1) / (r.2 - r.1) = 1 := by
        have := mul_right_cancel₀ hbk (h.trans (one_mul _).symm)
        exact this
      rw [div_eq_one_iff_eq hr] at this
      exact he.2 (by linarith)
    by_cases hg : InRange .ngp bins (scaled r bins p.1)
    · rw [wsum_c1 ha.bins r p (hg.clear ha.bins) hi]
      simp only [W, NumpyBin, h1, and_false, or_false]
      by_cases hc : (i : K) ≤ scaled r bins p.1 ∧ scaled r bins p.1 < i + 1
      · rw [if_pos hc, if_pos ⟨by linarith [hc.2], by linarith [hc.1]⟩, one_mul]
      · rw [if_neg hc, if_neg (fun h => hc ⟨by linarith [h.2], by linarith [h.1]⟩), zero_mul]
    · have hgd : guard1 .ngp bins (scaled r bins p.1) = false := by
        simp only [InRange] at hg
        simp only [guard1, ← Bool.decide_and]
        exact decide_eq_false hg
      unfold c1
      rw [hgd, if_neg (by simp), wsum_nil, if_neg]
      intro hn
      simp only [InRange] at hg
      simp only [NumpyBin, h1, and_false, or_false] at hn
      apply hg
      have hi0 : (0 : K) ≤ i := Nat.cast_nonneg i
      have hi1 : (i : K) + 1 ≤ bins := by exact_mod_cast hi
      exact ⟨lt_of_le_of_ne (hi0.trans hn.1) (Ne.symm h0), lt_of_lt_of_le hn.2 hi1⟩
  rw [List.map_congr_left key]
  generalize data.zip (weightsOf data.length weights) = l
  induction l with
  | nil => rfl
  | cons p l ih =>
    rw [List.map_cons, List.sum_cons, ih, List.filter_cons]
    by_cases hc : NumpyBin bins i (scaled r bins p.1)
    · rw [if_pos hc, if_pos (decide_eq_true hc), List.map_cons, List.sum_cons]
    · rw [if_neg hc, if_neg (by simp [hc]), zero_add]

/-- **The code violates C04**: particles exactly at the limits of the range are dropped. With the
default range (minimum and maximum of the data) this always concerns the extremal particles:
three particles at 0, 1/2, 1 give the counts `[0, 1]` instead of `[1, 2]`. -/
theorem histogram_ngp_numpy_violated :
    histogram (fun _ => (1 / 1000 : ℚ)) .ngp [0, 1 / 2, 1] (0, 1) 2 none
      = .ok ([0, 1], [0, 1 / 2, 1]) ∧
    NumpyBin 2 0 (scaled (0, 1) 2 (0 : ℚ)) ∧ NumpyBin 2 1 (scaled (0, 1) 2 (1 : ℚ)) := by
  refine ⟨by decide +kernel, ?_, ?_⟩ <;> simp [NumpyBin, scaled]

example : ∀ d ∈ ([1 / 4, 3 / 4, 7] : List ℚ), d ≠ (0, 1).1 ∧ d ≠ ((0, 1) : ℚ × ℚ).2 := by
  intro d hd; simp at hd; rcases hd with rfl | rfl | rfl <;> norm_num

/-! ## C05: no negative bins -/

/-- Missing for the full property: particles less than 3/2 cells outside of the range, see
`histogram_nonneg_violated`. -/
theorem histogram_nonneg_partial (spacing : K → K) (s : Shape) (data : List K) (r : K × K)
    (bins : ℕ) (weights : Option (List K)) (ha : Args1 spacing data r bins weights)
    (hin : ∀ d ∈ data, Clear s bins (scaled r bins d))
    (hw : ∀ w ∈ weightsOf data.length weights, 0 ≤ w) :
    ∃ h e, histogram spacing s data r bins weights = .ok (h, e) ∧ ∀ v ∈ h, 0 ≤ v := by
  refine ⟨_, _, histogram_clear spacing s data r bins weights ha hin, ?_⟩
  intro v hv
  simp only [grid1, List.mem_map] at hv
  obtain ⟨i, _, rfl⟩ := hv
  apply List.sum_nonneg
  intro u hu
  simp only [List.mem_map] at hu
  obtain ⟨p, hp, rfl⟩ := hu
  exact mul_nonneg (W_nonneg _ _) (hw _ (List.of_mem_zip hp).2)

/-- 2D. -/
theorem histogram2d_nonneg_partial (spacing : K → K) (s : Shape) (datax datay : List K)
    (rx ry : K × K) (xb yb : ℕ) (weights : Option (List K))
    (ha : Args2 spacing datax datay rx ry xb yb weights)
    (hx : ∀ d ∈ datax, Clear s xb (scaled rx xb d))
    (hy : ∀ d ∈ datay, Clear s yb (scaled ry yb d))
    (hw : ∀ w ∈ weightsOf datax.length weights, 0 ≤ w) :
    ∃ h ex ey, histogram2d spacing s datax datay rx ry xb yb weights = .ok (h, ex, ey) ∧
      ∀ row ∈ h, ∀ v ∈ row, 0 ≤ v := by
  refine ⟨_, _, _, histogram2d_clear spacing s datax datay rx ry xb yb weights ha hx hy, ?_⟩
  intro row hrow v hv
  simp only [grid2, List.mem_map] at hrow
  obtain ⟨i, _, rfl⟩ := hrow
  simp only [List.mem_map] at hv
  obtain ⟨j, _, rfl⟩ := hv
  apply List.sum_nonneg
  intro u hu
  simp only [List.mem_map] at hu
  obtain ⟨p, hp, rfl⟩ := hu
  exact mul_nonneg (mul_nonneg (W_nonneg _ _) (W_nonneg _ _)) (hw _ (List.of_mem_zip hp).2)

/-- 3D. -/
theorem histogram3d_nonneg_partial (spacing : K → K) (s : Shape) (datax datay dataz : List K)
    (rx ry rz : K × K) (xb yb zb : ℕ) (weights : Option (List K))
    (ha : Args3 spacing datax datay dataz rx ry rz xb yb zb weights)
    (hx : ∀ d ∈ datax, Clear s xb (scaled rx xb d))
    (hy : ∀ d ∈ datay, Clear s yb (scaled ry yb d))
    (hz : ∀ d ∈ dataz, Clear s zb (scaled rz zb d))
    (hw : ∀ w ∈ weightsOf datax.length weights, 0 ≤ w) :
    ∃ h ex ey ez, histogram3d spacing s datax datay dataz rx ry rz xb yb zb weights
        = .ok (h, ex, ey, ez) ∧ ∀ m ∈ h, ∀ row ∈ m, ∀ v ∈ row, 0 ≤ v := by
  refine ⟨_, _, _, _, histogram3d_clear spacing s datax datay dataz rx ry rz xb yb zb weights ha
    hx hy hz, ?_⟩
  intro m hm row hrow v hv
  simp only [grid3, List.mem_map] at hm
  obtain ⟨i, _, rfl⟩ := hm
  simp only [List.mem_map] at hrow
  obtain ⟨j, _, rfl⟩ := hrow
  simp only [List.mem_map] at hv
  obtain ⟨k, _, rfl⟩ := hv
  apply List.sum_nonneg
  intro u hu
  simp only [List.mem_map] at hu
  obtain ⟨p, hp, rfl⟩ := hu
  exact mul_nonneg (mul_nonneg (mul_nonneg (W_nonneg _ _) (W_nonneg _ _)) (W_nonneg _ _))
    (hw _ (List.of_mem_zip hp).2)

/-- **The code violates C05**: a particle of weight 1 half a cell or more below the range
(tophat, one bin, position -1) gives the bin the value -1/2, because the cast rounds towards
zero and the particle is taken for one in cell 0. -/
theorem histogram_nonneg_violated :
    histogram (fun _ => (1 / 1000 : ℚ)) .tophat [-1] (0, 1) 1 none = .ok ([-1 / 2], [0, 1]) := by
  decide +kernel

/-- The same happens for the default shape (triangle): a particle at -1/2 bins gets a value which
is not the B-spline weight. -/
theorem histogram_below_range_triangle :
    histogram (fun _ => (1 / 1000 : ℚ)) .triangle [-1 / 2] (0, 2) 2 none
      = .ok ([-1 / 4, 1 / 8], [0, 1, 2]) := by decide +kernel

/-! ## C07: swapping the axes transposes -/

/-- Missing for the full property: particles less than 3/2 cells outside of the range, see
`histogram2d_swap_violated`. -/
theorem histogram2d_swap_partial (spacing : K → K) (s : Shape) (datax datay : List K)
    (rx ry : K × K) (xb yb : ℕ) (weights : Option (List K))
    (ha : Args2 spacing datax datay rx ry xb yb weights)
    (hx : ∀ d ∈ datax, Clear s xb (scaled rx xb d))
    (hy : ∀ d ∈ datay, Clear s yb (scaled ry yb d)) :
    ∃ F : ℕ → ℕ → K,
      histogram2d spacing s datax datay rx ry xb yb weights
        = .ok (grid2 xb yb F, binEdges rx xb, binEdges ry yb) ∧
      histogram2d spacing s datay datax ry rx yb xb weights
        = .ok (grid2 yb xb (fun j i => F i j), binEdges ry yb, binEdges rx xb) := by
  refine ⟨_, histogram2d_clear spacing s datax datay rx ry xb yb weights ha hx hy, ?_⟩
  have ha' : Args2 spacing datay datax ry rx yb xb weights :=
    ⟨ha.len.symm, ha.rangey, ha.rangex, ha.binsy, ha.binsx, by
      have := ha.weights; rw [ha.len] at this; exact this⟩
  rw [histogram2d_clear spacing s datay datax ry rx yb xb weights ha' hy hx]
  simp only [grid2, Except.ok.injEq, Prod.mk.injEq, and_true]
  apply List.map_congr_left; intro j _
  apply List.map_congr_left; intro i _
  rw [← ha.len]
  have hz : ∀ (a b : List K) (w : List K), (b.zip a).zip w
      = ((a.zip b).zip w).map fun p => ((p.1.2, p.1.1), p.2) := by
    intro a
    induction a with
    | nil => intro b w; cases b <;> simp
    | cons x a ih =>
      intro b w
      cases b with
      | nil => simp
      | cons y b =>
        cases w with
        | nil => simp
        | cons v w => simp [ih]
  rw [hz datax datay, List.map_map]
  congr 1
  apply List.map_congr_left; intro p _
  simp only [Function.comp]
  ring

/-- **The code violates C07**: a particle a quarter of a cell below the range along the first axis
is deposited; along the second axis it is dropped. -/
theorem histogram2d_swap_violated :
    histogram2d (fun _ => (1 / 1000 : ℚ)) .tophat [-1 / 4] [1 / 2] (0, 1) (0, 1) 1 1 none
      = .ok ([[1 / 4]], [0, 1], [0, 1]) ∧
    histogram2d (fun _ => (1 / 1000 : ℚ)) .tophat [1 / 2] [-1 / 4] (0, 1) (0, 1) 1 1 none
      = .ok ([[0]], [0, 1], [0, 1]) := by
  constructor <;> decide +kernel

/-! ## The theorems applied

Two particles in the range and one far outside, in all dimensions. -/

theorem args1_sample : Args1 (fun _ => (1 / 1000 : ℚ)) [1, 5 / 2, -20] (0, 4) 4 (some [2, 3, 4]) :=
  ⟨⟨by norm_num, by norm_num⟩, by norm_num, rfl⟩

theorem args2_sample : Args2 (fun _ => (1 / 1000 : ℚ)) [1, 5 / 2, -20] [2, 1, 3] (0, 4) (-1, 5) 4 3 (some [2, 3, 4]) :=
  ⟨rfl, ⟨by norm_num, by norm_num⟩, ⟨by norm_num, by norm_num⟩, by norm_num, by norm_num, rfl⟩

theorem args3_sample : Args3 (fun _ => (1 / 1000 : ℚ)) [1, 5 / 2, -20] [2, 1, 3] [1, 2, 3] (0, 4) (-1, 5) (0, 4) 4 3 5 (some [2, 3, 4]) :=
  ⟨rfl, rfl, ⟨by norm_num, by norm_num⟩, ⟨by norm_num, by norm_num⟩, ⟨by norm_num, by norm_num⟩, by norm_num, by norm_num, by norm_num, rfl⟩

/-- The particles inside only. -/
theorem args1_inside : Args1 (fun _ => (1 / 1000 : ℚ)) [2, 9 / 4] (0, 4) 4 (some [2, 3]) := ⟨⟨by norm_num, by norm_num⟩, by norm_num, rfl⟩

theorem args2_inside : Args2 (fun _ => (1 / 1000 : ℚ)) [2, 9 / 4] [2, 3] (0, 4) (-1, 5) 4 3 (some [2, 3]) :=
  ⟨rfl, ⟨by norm_num, by norm_num⟩, ⟨by norm_num, by norm_num⟩, by norm_num, by norm_num, rfl⟩

theorem args3_inside : Args3 (fun _ => (1 / 1000 : ℚ)) [2, 9 / 4] [2, 3] [1, 2] (0, 4) (-1, 5) (0, 4) 4 3 5 (some [2, 3]) :=
  ⟨rfl, rfl, ⟨by norm_num, by norm_num⟩, ⟨by norm_num, by norm_num⟩, ⟨by norm_num, by norm_num⟩, by norm_num, by norm_num, by norm_num, rfl⟩


instance decidableClear (s : Shape) (n : ℕ) (x : ℚ) : Decidable (Clear s n x) := by
  unfold Clear; cases s <;> dsimp only <;> infer_instance

instance decidableInRange (s : Shape) (n : ℕ) (x : ℚ) : Decidable (InRange s n x) := by
  unfold InRange; cases s <;> dsimp only <;> infer_instance

instance decidableInside (s : Shape) (n : ℕ) (x : ℚ) : Decidable (Inside s n x) := by unfold Inside; infer_instance

instance decidableNumpyBin (n i : ℕ) (x : ℚ) : Decidable (NumpyBin n i x) := by unfold NumpyBin; infer_instance

example := histogram_clear _ .spline3 _ _ _ _ args1_sample (by decide +kernel)
example := histogram2d_clear _ .triangle _ _ _ _ _ _ _ args2_sample (by decide +kernel) (by decide +kernel)
example := histogram3d_clear _ .tophat _ _ _ _ _ _ _ _ _ _ args3_sample (by decide +kernel) (by decide +kernel) (by decide +kernel)
example := histogram_bspline _ .spline3 _ _ _ _ args1_inside (by decide +kernel)
example := histogram2d_bspline _ .ngp _ _ _ _ _ _ _ args2_inside (by decide +kernel) (by decide +kernel)
example := histogram3d_bspline _ .triangle _ _ _ _ _ _ _ _ _ _ args3_inside (by decide +kernel) (by decide +kernel) (by decide +kernel)
example := histogram_conserves_weight _ .spline3 _ _ _ _ args1_inside (by decide +kernel)
example := histogram2d_conserves_weight _ .triangle _ _ _ _ _ _ _ args2_inside (by decide +kernel) (by decide +kernel)
example := histogram3d_conserves_weight _ .tophat _ _ _ _ _ _ _ _ _ _ args3_inside (by decide +kernel) (by decide +kernel) (by decide +kernel)
example := histogram_memory_safe _ .spline3 _ _ _ _ args1_sample
example := histogram3d_memory_safe_partial _ .tophat _ _ _ _ _ _ _ _ _ _ args3_sample (.inr (by decide +kernel)) (.inr (by decide +kernel))
example := histogram_ngp_numpy_partial _ _ _ _ _ args1_sample (by norm_num) (by decide +kernel)
example := histogram_nonneg_partial _ .spline3 _ _ _ _ args1_sample (by decide +kernel) (by decide +kernel)
example := histogram2d_nonneg_partial _ .triangle _ _ _ _ _ _ _ args2_sample (by decide +kernel) (by decide +kernel) (by decide +kernel)
example := histogram3d_nonneg_partial _ .tophat _ _ _ _ _ _ _ _ _ _ args3_sample (by decide +kernel) (by decide +kernel) (by decide +kernel)
  (by decide +kernel)
example := histogram2d_swap_partial _ .triangle _ _ _ _ _ _ _ args2_sample (by decide +kernel) (by decide +kernel)

end Postpic.Props
