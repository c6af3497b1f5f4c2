import Verif.Model.Histogramdd
import Verif.Props.Histogram

/-!
# C53, C54: the argument forms of `histogramdd`
-/

set_option linter.unusedSectionVars false

set_option autoImplicit false

namespace Postpic.Props

open Postpic Postpic.Spec Postpic.Histogram

variable {K : Type} [Field K] [LinearOrder K] [IsStrictOrderedRing K] [FloorRing K]

/-! ## C53: an (N, D) array is N points in D dimensions -/

/-- The columns of `N` points in `D` dimensions (specification). -/
def columnsOf (rows : List (List K)) (D : ℕ) : List (List K) :=
  (List.range D).map fun i => rows.map fun r => r.getD i 0

/-- An `(N, D)` array with more than 3 points is treated like the sequence of its columns. Missing
for the full property: up to 3 points, see `histogramdd_array_violated`. -/
theorem histogramdd_array_partial (spacing : K → K) (rows : List (List K)) (D : ℕ)
    (hN : 3 < rows.length) (range : RangeArg K) (bins : BinsArg)
    (weights : Option (List K)) (shape : Option ℕ) :
    histogramdd spacing (.array rows D) range bins weights shape
      = histogramdd spacing (.seq (columnsOf rows D)) range bins weights shape := by
  have h : columns (.array rows D) = columns (.seq (columnsOf rows D)) := by
    simp only [columns, hN, if_true]
    change _ = columns (Data.seq ((List.range D).map (column rows)))
    cases h : (List.range D).map (column rows) with
    | nil => simp [columns]
    | cons a l => simp [columns]
  unfold histogramdd
  rw [h]

/-- **The code violates C53**: three points in one dimension, as `(3, 1)` array, are taken for one
point in three dimensions. -/
theorem histogramdd_array_violated :
    histogramdd (fun _ => (1 / 1000 : ℚ)) (.array [[1 / 2], [1 / 2], [1 / 2]] 1)
        (.many [some (some 0, some 1), some (some 0, some 1), some (some 0, some 1)]) (.int 1) none
        (some 0)
      = .ok (.h3 [[[1]]] [0, 1] [0, 1] [0, 1]) ∧
    histogramdd (fun _ => (1 / 1000 : ℚ)) (.seq (columnsOf [[1 / 2], [1 / 2], [1 / 2]] 1))
        (.many [some (some 0, some 1), some (some 0, some 1), some (some 0, some 1)]) (.int 1) none
        (some 0)
      = .ok (.h1 [3] [0, 1]) := by
  constructor <;> decide +kernel

/-! ## C54: defaults of the range -/

/-- The range meant by a pair whose ends may be missing (specification). -/
def RangeMeans (a b : Option K) (d : List K) (r : K × K) : Prop :=
  (∀ x, a = some x → r.1 = x) ∧ (a = none → r.1 ∈ d ∧ ∀ y ∈ d, r.1 ≤ y) ∧
  (∀ x, b = some x → r.2 = x) ∧ (b = none → r.2 ∈ d ∧ ∀ y ∈ d, y ≤ r.2)

theorem foldl_min_spec (l : List K) (a : K) :
    l.foldl min a ∈ a :: l ∧ ∀ y ∈ a :: l, l.foldl min a ≤ y := by
  induction l generalizing a with
  | nil => simp
  | cons b l ih =>
    obtain ⟨h1, h2⟩ := ih (min a b)
    rw [List.foldl_cons]
    have hm : l.foldl min (min a b) ≤ min a b := h2 _ (by simp)
    refine ⟨?_, ?_⟩
    · rcases List.mem_cons.1 h1 with h | h
      · rcases min_choice a b with h' | h' <;> rw [h'] at h ⊢ <;> simp [h]
      · simp [h]
    · intro y hy
      rcases List.mem_cons.1 hy with rfl | hy
      · exact hm.trans (min_le_left _ _)
      · rcases List.mem_cons.1 hy with rfl | hy
        · exact hm.trans (min_le_right _ _)
        · exact h2 y (by simp [hy])

theorem foldl_max_spec (l : List K) (a : K) :
    l.foldl max a ∈ a :: l ∧ ∀ y ∈ a :: l, y ≤ l.foldl max a := by
  induction l generalizing a with
  | nil => simp
  | cons b l ih =>
    obtain ⟨h1, h2⟩ := ih (max a b)
    rw [List.foldl_cons]
    have hm : max a b ≤ l.foldl max (max a b) := h2 _ (by simp)
    refine ⟨?_, ?_⟩
    · rcases List.mem_cons.1 h1 with h | h
      · rcases max_choice a b with h' | h' <;> rw [h'] at h ⊢ <;> simp [h]
      · simp [h]
    · intro y hy
      rcases List.mem_cons.1 hy with rfl | hy
      · exact (le_max_left _ _).trans hm
      · rcases List.mem_cons.1 hy with rfl | hy
        · exact (le_max_right _ _).trans hm
        · exact h2 y (by simp [hy])

theorem npMin_spec (d : List K) (hd : d ≠ []) :
    ∃ m, npMin d = .ok m ∧ m ∈ d ∧ ∀ y ∈ d, m ≤ y := by
  cases d with
  | nil => exact absurd rfl hd
  | cons a l => exact ⟨_, rfl, foldl_min_spec l a⟩

theorem npMax_spec (d : List K) (hd : d ≠ []) :
    ∃ m, npMax d = .ok m ∧ m ∈ d ∧ ∀ y ∈ d, y ≤ m := by
  cases d with
  | nil => exact absurd rfl hd
  | cons a l => exact ⟨_, rfl, foldl_max_spec l a⟩

/-- With `range` a sequence of pairs, each missing end is replaced with the minimum or maximum of
the data, the other end is used as given; the histogram is taken with this range. -/
theorem histogramdd_range (spacing : K → K) (d : List K) (hd : d ≠ []) (a b : Option K) (n : ℕ)
    (weights : Option (List K)) (s : Shape) (c : ℕ) (hs : Shape.ofCode c = some s) :
    ∃ r, RangeMeans a b d r ∧
      histogramdd spacing (.scalars d) (.many [some (a, b)]) (.int n) weights (some c)
        = (histogram spacing s d r n weights).map fun he => Hist.h1 he.1 he.2 := by
  obtain ⟨lo, hlo, hlo'⟩ := npMin_spec d hd
  obtain ⟨hi, hhi, hhi'⟩ := npMax_spec d hd
  refine ⟨(a.getD lo, b.getD hi), ⟨?_, ?_, ?_, ?_⟩, ?_⟩
  · rintro x rfl; rfl
  · rintro rfl; exact hlo'
  · rintro x rfl; rfl
  · rintro rfl; exact hhi'
  · have hc : columns (.scalars d) = .ok [d] := by
      cases d with
      | nil => exact absurd rfl hd
      | cons x l => rfl
    have hr : rangeAt (rangeSeq (.many [some (a, b)])) 0 d = .ok (a.getD lo, b.getD hi) := by
      simp only [rangeSeq, rangeAt]
      cases a <;> cases b <;> simp [hlo, hhi, bind, Except.bind, pure, Except.pure]
    simp only [histogramdd, hc, hr, bind, Except.bind, binsSeq, binAt, shapeOf, Option.getD_some,
      hs, List.replicate, pure, Except.pure, List.getElem?_cons_zero]
    cases histogram spacing s d (a.getD lo, b.getD hi) n weights <;> rfl

/-- No range: minimum and maximum. -/
theorem histogramdd_range_none (spacing : K → K) (d : List K) (hd : d ≠ []) (n : ℕ)
    (weights : Option (List K)) (s : Shape) (c : ℕ) (hs : Shape.ofCode c = some s) :
    ∃ r, RangeMeans none none d r ∧
      histogramdd spacing (.scalars d) .none (.int n) weights (some c)
        = (histogram spacing s d r n weights).map fun he => Hist.h1 he.1 he.2 := by
  obtain ⟨r, hr, h⟩ := histogramdd_range spacing d hd none none n weights s c hs
  refine ⟨r, hr, ?_⟩
  rw [← h]
  have : rangeAt (rangeSeq (RangeArg.none (K := K))) 0 d
      = rangeAt (rangeSeq (.many [some (none, none)])) 0 d := rfl
  cases d with
  | nil => exact absurd rfl hd
  | cons x l => simp only [histogramdd, columns, bind, Except.bind, this]

theorem rangeAt_means (l : List (Option (End K × End K))) (k : ℕ) (a b : Option K) (d : List K)
    (hd : d ≠ []) (hl : l[k]? = some (some (a, b))) :
    ∃ r, rangeAt (some l) k d = .ok r ∧ RangeMeans a b d r := by
  obtain ⟨lo, hlo, hlo'⟩ := npMin_spec d hd
  obtain ⟨hi, hhi, hhi'⟩ := npMax_spec d hd
  refine ⟨(a.getD lo, b.getD hi), ?_, ?_, ?_, ?_, ?_⟩
  · simp only [rangeAt, hl]
    cases a <;> cases b <;> simp [hlo, hhi, bind, Except.bind, pure, Except.pure]
  · rintro x rfl; rfl
  · rintro rfl; exact hlo'
  · rintro x rfl; rfl
  · rintro rfl; exact hhi'

/-- C53, C54 in two dimensions: the first column is the first axis, with the first range and the first
number of bins, the second column is the second axis. -/
theorem histogramdd_2d (spacing : K → K) (x y : List K) (hx : x ≠ []) (hy : y ≠ [])
    (a b a' b' : Option K) (nx ny : ℕ) (weights : Option (List K)) (s : Shape) (c : ℕ)
    (hs : Shape.ofCode c = some s) :
    ∃ rx ry, RangeMeans a b x rx ∧ RangeMeans a' b' y ry ∧
      histogramdd spacing (.seq [x, y]) (.many [some (a, b), some (a', b')]) (.many [nx, ny]) weights
          (some c) =
        (histogram2d spacing s x y rx ry nx ny weights).map fun h => Hist.h2 h.1 h.2.1 h.2.2 := by
  obtain ⟨rx, h1, hm1⟩ := rangeAt_means [some (a, b), some (a', b')] 0 a b x hx rfl
  obtain ⟨ry, h2, hm2⟩ := rangeAt_means [some (a, b), some (a', b')] 1 a' b' y hy rfl
  refine ⟨rx, ry, hm1, hm2, ?_⟩
  simp only [histogramdd, columns, rangeSeq, h1, h2, bind, Except.bind, binsSeq, binAt, shapeOf,
    Option.getD_some, hs, pure, Except.pure, List.getElem?_cons_zero, List.getElem?_cons_succ]
  cases histogram2d spacing s x y rx ry nx ny weights <;> rfl

/-- C53, C54 in three dimensions. -/
theorem histogramdd_3d (spacing : K → K) (x y z : List K) (hx : x ≠ []) (hy : y ≠ []) (hz : z ≠ [])
    (a b a' b' a'' b'' : Option K) (nx ny nz : ℕ) (weights : Option (List K)) (s : Shape) (c : ℕ)
    (hs : Shape.ofCode c = some s) :
    ∃ rx ry rz, RangeMeans a b x rx ∧ RangeMeans a' b' y ry ∧ RangeMeans a'' b'' z rz ∧
      histogramdd spacing (.seq [x, y, z]) (.many [some (a, b), some (a', b'), some (a'', b'')])
          (.many [nx, ny, nz]) weights (some c) =
        (histogram3d spacing s x y z rx ry rz nx ny nz weights).map
          fun h => Hist.h3 h.1 h.2.1 h.2.2.1 h.2.2.2 := by
  obtain ⟨rx, h1, hm1⟩ := rangeAt_means [some (a, b), some (a', b'), some (a'', b'')] 0 a b x hx rfl
  obtain ⟨ry, h2, hm2⟩ := rangeAt_means [some (a, b), some (a', b'), some (a'', b'')] 1 a' b' y hy rfl
  obtain ⟨rz, h3, hm3⟩ := rangeAt_means [some (a, b), some (a', b'), some (a'', b'')] 2 a'' b'' z hz rfl
  refine ⟨rx, ry, rz, hm1, hm2, hm3, ?_⟩
  simp only [histogramdd, columns, rangeSeq, h1, h2, h3, bind, Except.bind, binsSeq, binAt, shapeOf,
    Option.getD_some, hs, pure, Except.pure, List.getElem?_cons_zero, List.getElem?_cons_succ]
  cases histogram3d spacing s x y z rx ry rz nx ny nz weights <;> rfl

/-- C58: a single number of bins is used along all axes; without bins these are 800 in one dimension,
500 along each axis in two and 200 along each axis in three dimensions. -/
theorem histogramdd_bins (spacing : K → K) (x y z : List K) (range : RangeArg K)
    (weights : Option (List K)) (shape : Option ℕ) (n : ℕ) :
    let h := fun (data : List (List K)) (bins : BinsArg) =>
      histogramdd spacing (.seq data) range bins weights shape
    (h [x] (.int n) = h [x] (.many [n]) ∧ h [x, y] (.int n) = h [x, y] (.many [n, n]) ∧
      h [x, y, z] (.int n) = h [x, y, z] (.many [n, n, n])) ∧
    (h [x] .none = h [x] (.many [800]) ∧ h [x, y] .none = h [x, y] (.many [500, 500]) ∧
      h [x, y, z] .none = h [x, y, z] (.many [200, 200, 200])) := by
  have i1 : binsSeq 1 (.int n) = [n] := rfl
  have i2 : binsSeq 2 (.int n) = [n, n] := rfl
  have i3 : binsSeq 3 (.int n) = [n, n, n] := rfl
  simp only [histogramdd, columns, bind, Except.bind, i1, i2, i3]
  simp only [binsSeq, and_self]

/-- C58: without `shape` the triangular shape, number 2, is used. -/
theorem histogramdd_shape (spacing : K → K) (data : Data K) (range : RangeArg K) (bins : BinsArg)
    (weights : Option (List K)) :
    histogramdd spacing data range bins weights none =
      histogramdd spacing data range bins weights (some 2) ∧ Shape.ofCode 2 = some .triangle := by
  refine ⟨?_, rfl⟩
  unfold histogramdd shapeOf
  simp only [Option.getD_none, Option.getD_some]

/-- C58: data with more than three columns, and missing numbers of bins, are refused. -/
theorem histogramdd_refused (spacing : K → K) (cols : List (List K)) (hc : 3 < cols.length)
    (range : RangeArg K) (bins : BinsArg) (weights : Option (List K)) (shape : Option ℕ) :
    histogramdd spacing (.seq cols) range bins weights shape = .error .valueError := by
  match cols, hc with
  | _ :: _ :: _ :: _ :: _, _ => rfl

/-- **The code violates C54**: for 1D data the documented short form `range=(None, 5)` ignores the
5 and uses the maximum of the data. -/
theorem histogramdd_range_violated :
    histogramdd (fun _ => (1 / 1000 : ℚ)) (.scalars [0, 1, 2]) (.pair none (some 5)) (.int 2) none
        (some 0)
      = .ok (.h1 [0, 1] [0, 1, 2]) := by decide +kernel

/-- Identical data (`min = max`): the range is widened. With a positive spacing this works; for
negative numbers `np.spacing` is negative and the range is *not* widened, so that the call fails
with ZeroDivisionError. -/
theorem histogramdd_identical_data_violated :
    histogramdd (fun x : ℚ => x / 1000) (.scalars [2, 2]) .none (.int 1) none (some 0)
      = .ok (.h1 [2] [2 - 1 / 500, 2 + 1 / 500]) ∧
    histogramdd (fun x : ℚ => x / 1000) (.scalars [-2, -2]) .none (.int 1) none (some 0)
      = .error .zeroDivisionError := by
  constructor <;> decide +kernel

/-- Identical data: if the spacing at the value is positive, all particles are counted. -/
theorem histogram_identical_data_partial (spacing : K → K) (v : K) (m : ℕ) (hs : 0 < spacing v) :
    ∃ e, histogram spacing .ngp (List.replicate m v) (v, v) 1 none = .ok ([(m : K)], e) := by
  let r : K × K := (v - spacing v, v + spacing v)
  have hf : fixRange spacing (v, v) = r := by
    simp [fixRange, hs, r]
  -- run the histogram with a spacing function for which the widened range is proper
  have hp : Proper (fun _ => spacing v) r := by
    refine ⟨?_, ?_⟩
    · simp only [r, ne_eq]; intro h; linarith
    · simp only [r]
      rw [abs_of_pos (by linarith)]; linarith
  have he : histogram spacing .ngp (List.replicate m v) (v, v) 1 none
      = histogram (fun _ => spacing v) .ngp (List.replicate m v) r 1 none := by
    simp only [histogram, hf, fixRange_of_proper hp]
  have hx : scaled r 1 v = 1 / 2 := by
    simp only [scaled, r]
    have : spacing v ≠ 0 := hs.ne'
    field_simp
    ring_nf
    exact mul_inv_cancel₀ this
  rw [he, histogram_bspline _ .ngp _ r 1 none ⟨hp, by norm_num, by simp [weightsOf]⟩]
  · refine ⟨binEdges r 1, ?_⟩
    simp only [grid1, weightsOf, List.range_one, List.map_cons, List.map_nil, Except.ok.injEq,
      Prod.mk.injEq, List.cons.injEq, and_true]
    rw [List.length_replicate]
    have : (List.replicate m v).zip (List.replicate m (1 : K)) = List.replicate m (v, 1) := by
      induction m with
      | zero => rfl
      | succ m ih => simp [List.replicate_succ]
    rw [this, List.map_replicate, List.sum_replicate, hx]
    simp [W]
  · intro d hd
    rw [List.eq_of_mem_replicate hd, hx]
    simp only [InRange]
    norm_num

/-! ### The theorems applied -/

example := histogramdd_array_partial (fun _ => (1 / 1000 : ℚ)) [[1, 2], [3, 1], [2, 2], [1, 1]] 2 (by decide) .none (.int 3) none none
example := histogramdd_range (fun _ => (1 / 1000 : ℚ)) [1, 3, 2] (by decide) (some 0) none 3 (some [1, 2, 3]) .spline3 3 rfl
example := histogramdd_range_none (fun _ => (1 / 1000 : ℚ)) [1, 3, 2] (by decide) 3 (some [1, 2, 3]) .spline3 3 rfl
example := histogramdd_2d (fun _ => (1 / 1000 : ℚ)) [1, 3, 2] [0, 1, 1] (by decide) (by decide) (some 0) none none (some 2) 3 4 none .triangle 2 rfl
example := histogramdd_3d (fun _ => (1 / 1000 : ℚ)) [1, 3, 2] [0, 1, 1] [5, 6, 7] (by decide) (by decide) (by decide) (some 0) none none (some 2)
  none none 3 4 5 none .tophat 1 rfl
example := histogramdd_bins (fun _ => (1 / 1000 : ℚ)) [1, 3, 2] [0, 1, 1] [5, 6, 7] .none none none 4
example := histogramdd_shape (fun _ => (1 / 1000 : ℚ)) (.seq [[1, 3, 2], [0, 1, 1]]) .none (.int 3) (some [1, 2, 3])
example := histogramdd_refused (fun _ => (1 / 1000 : ℚ)) [[1], [2], [3], [4]] (by decide) .none (.int 3) none none
example := histogram_identical_data_partial (fun _ => (1 / 1000 : ℚ)) 7 5 (by norm_num)

end Postpic.Props
