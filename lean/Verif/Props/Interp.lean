import Mathlib.Data.Rat.Floor
import Verif.Lemmas.Interp

/-!
# C39: parallel interpolation
-/

set_option autoImplicit false
set_option linter.unusedSectionVars false

namespace Postpic.Props

open Postpic Postpic.Interp

section
variable {K : Type} [_root_.Field K] [LinearOrder K] [IsStrictOrderedRing K] [FloorRing K]

/-- C39: the threads write every output point exactly once, nothing else, and for every order of
their writes each output point finally has the value scipy's routine computes from its own
coordinates and the whole array: for all shapes, chunk lengths, spline orders and coordinates, if the
mode is `constant` (the default of `map_coordinates_parallel`) or all coordinates are inside of the
array. Partial: see `interp_wrap_violated` for the other modes. -/
theorem map_coordinates_parallel_partial (weight : ℕ → K → ℕ → K) (splineFilter : ℕ → Arr K → Arr K)
    (hfilter : ∀ k a, (splineFilter k a).shape = a.shape) (input coordinates : Arr K) (order : ℕ)
    (ho : order ≤ 5) (mode : Mode) (cval : K) (prefilter : Bool) (chunklen : Option ℤ) (shape : List ℕ)
    (hs : coordinates.shape = input.shape.length :: shape) (h1 : input.shape ≠ []) (h2 : shape ≠ [])
    (h0 : 0 ∉ shape)
    (hm : mode = .constant ∨ ∀ idx, InBounds shape idx →
      List.Forall₂ Inside input.shape (coordsAt input.shape.length coordinates idx)) :
    ∃ ts, tasks weight splineFilter input coordinates order mode cval prefilter chunklen = .ok ts ∧
      (ts.flatten.map Prod.fst).Nodup ∧
      (∀ idx, idx ∈ ts.flatten.map Prod.fst ↔ InBounds shape idx) ∧
      ∀ (schedule : List (Write K)) (output : List ℕ → K), Interleaving ts schedule → ∀ idx,
        (InBounds shape idx → interp weight order mode cval
          (if prefilter ∧ 1 < order then splineFilter order input else input)
          (coordsAt input.shape.length coordinates idx) = .ok (run output schedule idx)) ∧
        (¬ InBounds shape idx → run output schedule idx = output idx) := by
  obtain ⟨ts, t1, t2, t3, t4⟩ := tasks_spec weight splineFilter hfilter input coordinates order ho mode
    cval prefilter chunklen shape hs h1 h2 h0 hm
  refine ⟨ts, t1, t2, t3, ?_⟩
  intro schedule output hi idx
  have hp := interleaving_perm hi
  set V := fun idx => interp weight order mode cval
    (if prefilter ∧ 1 < order then splineFilter order input else input)
    (coordsAt input.shape.length coordinates idx) with hV
  set F : List ℕ → K := fun idx => match V idx with
    | .ok v => v
    | .error _ => 0 with hF
  have hw : ∀ w ∈ schedule, w.2 = F w.1 := by
    intro w hw
    have : V w.1 = .ok w.2 := t4 w (hp.subset hw)
    rw [hF]
    simp only [this]
  have hr := run_eq F hw output idx
  have hmem : idx ∈ schedule.map Prod.fst ↔ InBounds shape idx := by
    rw [← t3 idx]
    exact (hp.map Prod.fst).mem_iff
  refine ⟨fun hb => ?_, fun hb => hr.2 fun h => hb (hmem.1 h)⟩
  have hm' := hmem.2 hb
  rw [hr.1 hm']
  obtain ⟨w, hw', hwi⟩ := List.mem_map.1 hm'
  have hv : V w.1 = .ok w.2 := t4 w (hp.subset hw')
  rw [hwi] at hv
  show V idx = _
  rw [hF, hv]
  simp only [hv]

/-- There is always a schedule: one task after the other. -/
theorem schedule_exists (ts : List (List (Write K))) : ∃ schedule, Interleaving ts schedule :=
  ⟨_, interleaving_flatten ts⟩

/-- Orders above 5 are refused, and so are arrays without dimensions and coordinates that do not fit
to the dimensions of the input. -/
theorem map_coordinates_parallel_refused (weight : ℕ → K → ℕ → K) (splineFilter : ℕ → Arr K → Arr K)
    (input coordinates : Arr K) (order : ℤ) (mode : Mode) (cval : K) (prefilter : Bool)
    (chunklen : Option ℤ)
    (h : order < 0 ∨ 5 < order ∨ input.shape = [] ∨ coordinates.shape.length ≤ 1 ∨
      coordinates.shape.head? ≠ some input.shape.length) :
    tasks weight splineFilter input coordinates order mode cval prefilter chunklen =
      .error .runtimeError := by
  unfold tasks
  by_cases h1 : order < 0 ∨ 5 < order
  · rw [if_pos h1]
    rfl
  · rw [if_neg h1]
    by_cases h2 : input.shape.length < 1 ∨ coordinates.shape.tail.length < 1
    · simp only [h2, if_true]
      rfl
    · have h3 : coordinates.shape.head? ≠ some input.shape.length := by
        rcases h with h | h | h | h | h
        · exact absurd (Or.inl h) h1
        · exact absurd (Or.inr h) h1
        · exact absurd (Or.inl (by rw [h]; decide)) h2
        · refine absurd (Or.inr ?_) h2
          rw [List.length_tail]
          omega
        · exact h
      simp only [h2, if_false]
      rw [if_pos h3]
      rfl

end

/-- The weights of linear interpolation. -/
def linearWeight (_ : ℕ) (x : ℚ) (k : ℕ) : ℚ := if k = 0 then 1 - x else x

/-- Twenty points with the values `i * i`. -/
def squares : Arr ℚ := ⟨[20], fun idx => idx.getD 0 0 * idx.getD 0 0⟩

/-- Coordinates of four output points. -/
def someCoordinates : Arr ℚ :=
  ⟨[1, 4], fun idx => ([1 / 2, 17 / 2, -3, 19] : List ℚ).getD (idx.getD 1 0) 0⟩

example := map_coordinates_parallel_partial linearWeight (fun _ a => a) (fun _ _ => rfl) squares
  someCoordinates 1 (by decide) .constant 0 true (some 3) [4] rfl (by decide) (by decide) (by decide)
  (Or.inl rfl)

/-- The tasks of this example: two chunks. -/
theorem example_tasks :
    tasks linearWeight (fun _ a => a) squares someCoordinates 1 .constant 7 true (some 3) =
      .ok [[([0], 1 / 2), ([1], 145 / 2), ([2], 7)], [([3], 361)]] := by
  decide +kernel

example : Interleaving [[([0], 1 / 2), ([1], 145 / 2), ([2], 7)], [([3], 361)]]
    [(([0] : List ℕ), (1 / 2 : ℚ)), ([3], 361), ([1], 145 / 2), ([2], 7)] := by
  refine .step (pre := []) (.step (pre := [_]) (.step (pre := []) (.step (pre := []) (.done ?_))))
  simp

/-- A single coordinate outside of the array. -/
def oneCoordinate (c : ℚ) : Arr ℚ := ⟨[1, 1], fun _ => c⟩

/-- C39 fails for the modes `wrap`, `mirror` and `reflect`: a chunk wraps at the borders of its own
region of the input. The results with chunks and without (`chunklen=0`) differ. -/
theorem interp_wrap_violated :
    (tasks linearWeight (fun _ a => a) squares (oneCoordinate (-1)) 1 .wrap 0 true none =
        .ok [[([0], 4)]] ∧
      tasks linearWeight (fun _ a => a) squares (oneCoordinate (-1)) 1 .wrap 0 true (some 0) =
        .ok [[([0], 324)]]) ∧
    (tasks linearWeight (fun _ a => a) squares (oneCoordinate (-3)) 1 .mirror 0 true none =
        .ok [[([0], 1)]] ∧
      tasks linearWeight (fun _ a => a) squares (oneCoordinate (-3)) 1 .mirror 0 true (some 0) =
        .ok [[([0], 9)]]) ∧
    (tasks linearWeight (fun _ a => a) squares (oneCoordinate (-3)) 1 .reflect 0 true none =
        .ok [[([0], 1)]] ∧
      tasks linearWeight (fun _ a => a) squares (oneCoordinate (-3)) 1 .reflect 0 true (some 0) =
        .ok [[([0], 4)]]) := by
  refine ⟨⟨?_, ?_⟩, ⟨?_, ?_⟩, ?_, ?_⟩ <;> decide +kernel

/-- C39 fails for the mode `nearest`: if all coordinates of a chunk are more than five points outside,
the region is empty, and the C code reads outside of it. -/
theorem interp_nearest_violated :
    tasks linearWeight (fun _ a => a) squares (oneCoordinate 40) 1 .nearest 0 true none =
      .error .undefinedBehaviour ∧
    tasks linearWeight (fun _ a => a) squares (oneCoordinate (-5)) 1 .nearest 0 true none =
      .error .undefinedBehaviour ∧
    tasks linearWeight (fun _ a => a) squares (oneCoordinate 40) 1 .nearest 0 true (some 0) =
      .ok [[([0], 361)]] := by
  decide +kernel

/-- An output without points raises an IndexError, where scipy returns an empty array. -/
theorem interp_empty_violated :
    tasks linearWeight (fun _ a => a) squares ⟨[1, 0], fun _ => 0⟩ 1 .constant 0 true none =
      .error .indexError ∧
    tasks linearWeight (fun _ a => a) squares ⟨[1, 0], fun _ => 0⟩ 1 .constant 0 true (some 0) =
      .ok [[]] := by
  decide +kernel

end Postpic.Props
