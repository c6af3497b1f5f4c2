import Verif.Lemmas.MapCoordinates
import Verif.Lemmas.Spline

/-!
# Lemmas on splines through given data
-/

set_option autoImplicit false
set_option linter.unusedSectionVars false

namespace Postpic.Interp

open Postpic Postpic.Spec Postpic.Fields

noncomputable section

theorem splineAt_point {order : ℕ} (ho : order ≤ 5) (n i : ℕ) (shape : List ℕ) (c : List ℕ → ℝ) (xs : List ℝ) :
    splineAt order (n :: shape) c ((i : ℝ) :: xs) = atPoint order n (fun m => splineAt order shape (fun t => c (m :: t)) xs) i := by
  rw [← weights_point ho]
  simp only [splineAt]
  exact (neighbours_sum ho n (i : ℝ) fun m => splineAt order shape (fun t => c (m :: t)) xs).symm

theorem samples_sum {order : ℕ} (ho : order ≤ 5) : samples order 0 + 2 * samples order 1 + 2 * samples order 2 = 1 := by
  have : order = 0 ∨ order = 1 ∨ order = 2 ∨ order = 3 ∨ order = 4 ∨ order = 5 := by omega
  rcases this with rfl | rfl | rfl | rfl | rfl | rfl <;> norm_num [samples]

theorem samples_bounds {order : ℕ} (ho : order ≤ 5) :
    0 ≤ samples order 1 ∧ 0 ≤ samples order 2 ∧ 2 * samples order 1 + 2 * samples order 2 < samples order 0 := by
  have : order = 0 ∨ order = 1 ∨ order = 2 ∨ order = 3 ∨ order = 4 ∨ order = 5 := by omega
  rcases this with rfl | rfl | rfl | rfl | rfl | rfl <;> norm_num [samples]

theorem mirrored_single (j : ℤ) : mirrored 1 j = 0 := by
  unfold mirrored
  rw [if_pos (le_refl 1)]

theorem filter_point {order : ℕ} (ho : order ≤ 5) {n i : ℕ} (hi : i < n) (g : ℕ → ℝ) :
    atPoint order n (filter1d order n g) i = g i := by
  by_cases hn : 2 ≤ n
  · rw [filter_line ho hn, mirrored_self hi]
  · obtain rfl : n = 1 := by omega
    obtain rfl : i = 0 := by omega
    unfold atPoint filter1d
    simp only [mirrored_single, le_refl, if_true]
    linear_combination g 0 * samples_sum ho

theorem splineAt_filter {order : ℕ} (ho : order ≤ 5) {shape idx : List ℕ} (h : InBounds shape idx) (g : List ℕ → ℝ) :
    splineAt order shape (filterAxes order shape g) (idx.map fun (i : ℕ) => (i : ℝ)) = g idx := by
  induction shape generalizing idx g with
  | nil =>
    obtain rfl := inBounds_nil.1 h
    simp [splineAt, filterAxes]
  | cons n shape ih =>
    cases idx with
    | nil => simp [InBounds] at h
    | cons i idx =>
      have hb := inBounds_cons.1 h
      obtain ⟨hi, ht⟩ : i < n ∧ InBounds shape idx := by simpa using hb
      rw [List.map_cons, splineAt_point ho]
      simp only [filterAxes, ih ht]
      exact filter_point ho hi fun k => g (k :: idx)

/-! ### Only one spline passes through the data -/

theorem line_unique {order : ℕ} (ho : order ≤ 5) {n : ℕ} {c : ℕ → ℝ} (h : ∀ i : ℕ, i < n → atPoint order n c i = 0)
    {i : ℕ} (hi : i < n) : c i = 0 := by
  have hn : 0 < n := by omega
  obtain ⟨m, hm, hmax⟩ := Finset.exists_max_image (Finset.range n) (fun i => |c i|) ⟨0, Finset.mem_range.2 hn⟩
  rw [Finset.mem_range] at hm
  have hb : ∀ j : ℤ, |c (mirrored n j)| ≤ |c m| := fun j => hmax _ (Finset.mem_range.2 (mirrored_lt hn j))
  obtain ⟨s1, s2, s3⟩ := samples_bounds ho
  have e := h m hm
  unfold atPoint at e
  rw [mirrored_self hm] at e
  have a1 := abs_le.1 (hb (m + 1))
  have a2 := abs_le.1 (hb (m - 1))
  have a3 := abs_le.1 (hb (m + 2))
  have a4 := abs_le.1 (hb (m - 2))
  have hz : |c m| = 0 := by
    have h0 := abs_nonneg (c m)
    by_contra hne
    have hpos : 0 < |c m| := lt_of_le_of_ne h0 (Ne.symm hne)
    rcases abs_cases (c m) with ⟨hc, _⟩ | ⟨hc, _⟩
    · nlinarith [mul_nonneg s1 (by linarith [a1.1] : 0 ≤ c (mirrored n (m + 1)) + |c m|),
        mul_nonneg s1 (by linarith [a2.1] : 0 ≤ c (mirrored n (m - 1)) + |c m|),
        mul_nonneg s2 (by linarith [a3.1] : 0 ≤ c (mirrored n (m + 2)) + |c m|),
        mul_nonneg s2 (by linarith [a4.1] : 0 ≤ c (mirrored n (m - 2)) + |c m|), mul_pos (sub_pos.2 s3) hpos]
    · nlinarith [mul_nonneg s1 (by linarith [a1.2] : 0 ≤ |c m| - c (mirrored n (m + 1))),
        mul_nonneg s1 (by linarith [a2.2] : 0 ≤ |c m| - c (mirrored n (m - 1))),
        mul_nonneg s2 (by linarith [a3.2] : 0 ≤ |c m| - c (mirrored n (m + 2))),
        mul_nonneg s2 (by linarith [a4.2] : 0 ≤ |c m| - c (mirrored n (m - 2))), mul_pos (sub_pos.2 s3) hpos]
  have := hmax i (Finset.mem_range.2 hi)
  rw [hz] at this
  exact abs_nonpos_iff.1 this

theorem atPoint_sub (order n : ℕ) (c d : ℕ → ℝ) (j : ℤ) :
    atPoint order n (fun m => c m - d m) j = atPoint order n c j - atPoint order n d j := by
  unfold atPoint
  ring

theorem coefficients_unique {order : ℕ} (ho : order ≤ 5) {shape : List ℕ} {c d : List ℕ → ℝ}
    (h : ∀ idx, InBounds shape idx → splineAt order shape c (idx.map fun (i : ℕ) => (i : ℝ)) =
      splineAt order shape d (idx.map fun (i : ℕ) => (i : ℝ))) {idx : List ℕ} (hi : InBounds shape idx) : c idx = d idx := by
  induction shape generalizing idx c d with
  | nil =>
    obtain rfl := inBounds_nil.1 hi
    simpa [splineAt] using h [] hi
  | cons n shape ih =>
    cases idx with
    | nil => simp [InBounds] at hi
    | cons i idx =>
      obtain ⟨hi1, hi2⟩ : i < n ∧ InBounds shape idx := by simpa using inBounds_cons.1 hi
      refine ih (c := fun t => c (i :: t)) (d := fun t => d (i :: t)) ?_ hi2
      intro idx' hidx'
      have := line_unique ho (n := n) (c := fun m =>
        splineAt order shape (fun t => c (m :: t)) (idx'.map fun (i : ℕ) => (i : ℝ)) -
        splineAt order shape (fun t => d (m :: t)) (idx'.map fun (i : ℕ) => (i : ℝ))) (fun k hk => by
          have hb : InBounds (n :: shape) (k :: idx') := inBounds_cons.2 (by simpa using ⟨hk, hidx'⟩)
          have e := h (k :: idx') hb
          rw [List.map_cons, splineAt_point ho, splineAt_point ho] at e
          rw [atPoint_sub, e, sub_self]) hi1
      linarith

theorem splineAt_congr (order : ℕ) {shape : List ℕ} (h0 : 0 ∉ shape) {c d : List ℕ → ℝ}
    (h : ∀ idx, InBounds shape idx → c idx = d idx) {xs : List ℝ} (hl : shape.length = xs.length) :
    splineAt order shape c xs = splineAt order shape d xs := by
  induction shape generalizing c d xs with
  | nil => simpa [splineAt] using h [] (inBounds_nil.2 rfl)
  | cons n shape ih =>
    cases xs with
    | nil => simp at hl
    | cons x xs =>
      simp only [List.mem_cons, not_or] at h0
      simp only [splineAt]
      apply Finset.sum_congr rfl
      intro j _
      congr 1
      refine ih h0.2 ?_ (by simpa using hl)
      intro idx hidx
      refine h _ (inBounds_cons.2 ?_)
      simpa using ⟨mirrored_lt (by omega) j, hidx⟩

theorem splineAt_linear (order : ℕ) (a b : ℝ) {shape : List ℕ} (c d : List ℕ → ℝ) (xs : List ℝ) :
    splineAt order shape (fun idx => a * c idx + b * d idx) xs = a * splineAt order shape c xs + b * splineAt order shape d xs := by
  induction shape generalizing c d xs with
  | nil => simp [splineAt]
  | cons n shape ih =>
    cases xs with
    | nil => simp [splineAt]
    | cons x xs =>
      simp only [splineAt, ih]
      rw [Finset.mul_sum, Finset.mul_sum, ← Finset.sum_add_distrib]
      apply Finset.sum_congr rfl
      intro j _
      ring

theorem weights_sum (order : ℕ) (x : ℝ) : ((List.range (order + 1)).map (splineWeights order x)).sum = 1 := by
  rw [List.range_succ, List.map_append, List.sum_append]
  have : (List.range order).map (splineWeights order x) = (List.range order).map (firstWeights order x) := by
    apply List.map_congr_left
    intro k hk
    rw [List.mem_range] at hk
    unfold splineWeights
    rw [if_pos hk]
  rw [this]
  simp [splineWeights]

theorem partition_unity {order : ℕ} (ho : order ≤ 5) (x : ℝ) :
    ∑ j ∈ Finset.Icc (⌊x⌋ - 6) (⌊x⌋ + 6), bspline order (x - j) = 1 := by
  have h := neighbours_sum ho 1 x fun _ => 1
  simp only [mul_one] at h
  rw [← h]
  exact weights_sum order _

theorem splineAt_const {order : ℕ} (ho : order ≤ 5) (v : ℝ) {shape : List ℕ} {xs : List ℝ} (hl : shape.length = xs.length) :
    splineAt order shape (fun _ => v) xs = v := by
  induction shape generalizing xs with
  | nil => simp [splineAt]
  | cons n shape ih =>
    cases xs with
    | nil => simp at hl
    | cons x xs =>
      have hl' : shape.length = xs.length := by simpa using hl
      simp only [splineAt, ih hl']
      rw [← Finset.sum_mul, partition_unity ho, one_mul]

/-- The value lies between the smallest and the largest coefficient, since no B-spline is negative. -/
theorem bspline_nonneg (n : ℕ) (u : ℝ) : 0 ≤ bspline n u := by
  obtain ⟨j, hj⟩ : ∃ j : ℤ, ⌊u + ((n : ℝ) + 1) / 2⌋ = j := ⟨_, rfl⟩
  have key : ∀ n : ℕ, ∀ t : ℝ, 0 ≤ t → t < 1 → ∀ j : ℤ, 0 ≤ piece n j t := by
    intro n
    induction n with
    | zero =>
      intro t h0 h1 j
      rw [piece_zero h0 h1]
      split_ifs <;> norm_num
    | succ n ih =>
      intro t h0 h1 j
      by_cases hj : j < 0 ∨ ((n + 1 : ℕ) : ℤ) < j
      · rw [piece_outside h0 h1 (n + 1) j hj]
      · push Not at hj
        rw [piece_succ]
        have h2 : (0 : ℝ) ≤ j := by exact_mod_cast hj.1
        have h3 : (j : ℝ) ≤ (n + 1 : ℕ) := by exact_mod_cast hj.2
        push_cast at h3
        apply div_nonneg
        · apply add_nonneg
          · exact mul_nonneg (by linarith) (ih t h0 h1 _)
          · exact mul_nonneg (by linarith) (ih t h0 h1 _)
        · positivity
  have := key n (Int.fract (u + ((n : ℝ) + 1) / 2)) (Int.fract_nonneg _) (Int.fract_lt_one _) ⌊u + ((n : ℝ) + 1) / 2⌋
  unfold piece at this
  convert this using 2
  rw [Int.fract_add_floor]
  ring

theorem splineAt_bounds {order : ℕ} (ho : order ≤ 5) {shape : List ℕ} (h0 : 0 ∉ shape) {c : List ℕ → ℝ} {lo hi : ℝ}
    (h : ∀ idx, InBounds shape idx → lo ≤ c idx ∧ c idx ≤ hi) {xs : List ℝ} (hl : shape.length = xs.length) :
    lo ≤ splineAt order shape c xs ∧ splineAt order shape c xs ≤ hi := by
  induction shape generalizing c xs with
  | nil => simpa [splineAt] using h [] (inBounds_nil.2 rfl)
  | cons n shape ih =>
    cases xs with
    | nil => simp at hl
    | cons x xs =>
      simp only [List.mem_cons, not_or] at h0
      have hj : ∀ j : ℤ, lo ≤ splineAt order shape (fun t => c (mirrored n j :: t)) xs ∧
          splineAt order shape (fun t => c (mirrored n j :: t)) xs ≤ hi := by
        intro j
        refine ih h0.2 ?_ (by simpa using hl)
        intro idx hidx
        refine h _ (inBounds_cons.2 ?_)
        simpa using ⟨mirrored_lt (by omega) j, hidx⟩
      simp only [splineAt]
      have hp := partition_unity ho x
      constructor
      · calc lo = ∑ j ∈ Finset.Icc (⌊x⌋ - 6) (⌊x⌋ + 6), bspline order (x - j) * lo := by rw [← Finset.sum_mul, hp, one_mul]
          _ ≤ _ := Finset.sum_le_sum fun j _ => mul_le_mul_of_nonneg_left (hj j).1 (bspline_nonneg _ _)
      · calc _ ≤ ∑ j ∈ Finset.Icc (⌊x⌋ - 6) (⌊x⌋ + 6), bspline order (x - j) * hi :=
              Finset.sum_le_sum fun j _ => mul_le_mul_of_nonneg_left (hj j).2 (bspline_nonneg _ _)
          _ = hi := by rw [← Finset.sum_mul, hp, one_mul]

/-! ### Samples -/

/-- The coefficients. -/
def coefficients (order : ℕ) (a : Arr ℝ) : List ℕ → ℝ := if 1 < order then filterAxes order a.shape a.at' else a.at'

theorem filter1d_low {order : ℕ} (ho : ¬ 1 < order) (n : ℕ) (g : ℕ → ℝ) : filter1d order n g = g := by
  unfold filter1d
  have : order = 0 ∨ order = 1 := by omega
  rcases this with rfl | rfl <;> simp [poles]

theorem filterAxes_low {order : ℕ} (ho : ¬ 1 < order) (shape : List ℕ) (g : List ℕ → ℝ) (idx : List ℕ) :
    filterAxes order shape g idx = g idx := by
  induction shape generalizing g idx with
  | nil => simp [filterAxes]
  | cons n shape ih =>
    cases idx with
    | nil => simp [filterAxes]
    | cons i idx => simp only [filterAxes, ih, filter1d_low ho]

theorem coefficients_fit {order : ℕ} (ho : order ≤ 5) (a : Arr ℝ) {idx : List ℕ} (h : InBounds a.shape idx) :
    splineAt order a.shape (coefficients order a) (idx.map fun (i : ℕ) => (i : ℝ)) = a.at' idx := by
  have := splineAt_filter ho h a.at'
  unfold coefficients
  split_ifs with h1
  · exact this
  · rwa [show filterAxes order a.shape a.at' = a.at' from funext fun idx => filterAxes_low h1 _ _ _] at this

theorem sample_inside {order : ℕ} (ho : order ≤ 5) (mode : Mode) (cval : ℝ) {a : Arr ℝ} {cs : List ℝ}
    (h : List.Forall₂ Inside a.shape cs) :
    splineSample order mode cval a cs = .ok (splineAt order a.shape (coefficients order a) cs) := by
  have hs : (if 1 < order then splineFilter order a else a).shape = a.shape := by split_ifs <;> rfl
  have ha : (if 1 < order then splineFilter order a else a).at' = coefficients order a := by
    unfold coefficients
    split_ifs <;> rfl
  unfold splineSample interp
  rw [hs, mapM_id_inside h]
  simp only [if_neg (inside_pos h)]
  rw [stencil_spline ho h.length_eq, ha]

theorem sample_outside (order : ℕ) (cval : ℝ) {a : Arr ℝ} {cs : List ℝ} (hl : cs.length = a.shape.length)
    (h : ¬ List.Forall₂ Inside a.shape cs) : splineSample order .constant cval a cs = .ok cval := by
  have hs : (if 1 < order then splineFilter order a else a).shape = a.shape := by split_ifs <;> rfl
  unfold splineSample interp
  rw [hs, mapM_id_none.2 (outside_mem hl h)]

end

end Postpic.Interp
