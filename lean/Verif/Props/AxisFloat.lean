import Verif.Lemmas.AxisFloat
import Verif.Props.Axis
import Verif.Props.HistogramFloat
import Verif.Props.RoundingError

/-!
# C122: coordinates are looked up correctly despite rounding
-/

set_option autoImplicit false
set_option linter.unusedSectionVars false

namespace Postpic.Props

open Postpic Postpic.Spec Postpic.Axes Postpic.Histogram

section

variable {K : Type} [Field K] [LinearOrder K] [IsStrictOrderedRing K] [FloorRing K]

/-- C122: whatever the mode of rounding, no point of the grid has a smaller computed distance than the one found. -/
theorem nearest_rounded (rnd : K → Dbl K) (hr : Rounding rnd) (ax : Axis K) (hv : ValidAxis ax.gridNode ax.grid ax.extent)
    (hne : ax.grid ≠ []) (v : K) :
    ∃ (i : ℕ) (g : K), ax.findNearestIndexF rnd v = .ok i ∧ ax.grid[i]? = some g ∧
      ∀ (j : ℕ) (g' : K), ax.grid[j]? = some g' → (rnd (v - g')).abs.lt (rnd (v - g)).abs = false := by
  obtain ⟨i, g, h1, h2, h3⟩ := findNearestF_split rnd hv hne v
  refine ⟨i, g, h1, h2, fun j g' hg' => ?_⟩
  rw [← distanceF_eq, ← distanceF_eq]
  rcases h3 j g' hg' with h | ⟨c, h, ⟨hc, -⟩ | ⟨hc, -⟩⟩
  · exact not_lt_of_le (beyond_rounded hr h)
  · exact not_lt_of_lt_le hc (beyond_rounded hr h)
  · refine not_lt_trans hc ?_ (beyond_rounded hr h)
    intro hn
    have := beyond_rounded hr h
    rw [hn] at this
    simp [Dbl.le] at this

/-- C122: a point of the grid is found at its own index. -/
theorem nearest_rounded_grid_point (rnd : K → Dbl K) (h0 : rnd 0 = .fin 0) (ax : Axis K)
    (hv : ValidAxis ax.gridNode ax.grid ax.extent) (m : ℕ) (v : K) (hm : ax.grid[m]? = some v) :
    ax.findNearestIndexF rnd v = .ok m := by
  have hne : ax.grid ≠ [] := by
    intro h
    rw [h] at hm
    simp at hm
  have uniq : ∀ i : ℕ, ax.grid[i]? = some v → i = m := by
    intro i hi
    rcases (wf_iff _ _).1 hv.wf with h | h
    · have hp := pairwise_of_mono lt_tr (interleave_mono_grid lt_tr h)
      rcases Nat.lt_trichotomy i m with h | h | h
      · exact absurd (pairwise_get hp h hi hm) (lt_irrefl _)
      · exact h
      · exact absurd (pairwise_get hp h hm hi) (lt_irrefl _)
    · have hp := pairwise_of_mono gt_tr (interleave_mono_grid gt_tr h)
      rcases Nat.lt_trichotomy i m with h | h | h
      · exact absurd (pairwise_get hp h hi hm) (lt_irrefl _)
      · exact h
      · exact absurd (pairwise_get hp h hm hi) (lt_irrefl _)
  have self : ∀ c : K, Beyond v c v → c = v := by
    intro c h
    have := beyond_abs h
    rw [sub_self, abs_zero] at this
    exact (sub_eq_zero.1 (abs_eq_zero.1 (le_antisymm this (abs_nonneg _)))).symm
  obtain ⟨i, g, h1, h2, h3⟩ := findNearestF_split rnd hv hne v
  rcases h3 m v hm with h | ⟨c, h, ⟨hc, -⟩ | ⟨-, hc⟩⟩
  · rw [self g h] at h2
    rw [h1, uniq i h2]
  · rw [self c h, distanceF_eq, distanceF_eq, sub_self, h0] at hc
    generalize rnd (v - g) = a at hc
    rcases a with _ | s | a
    · simp [Dbl.lt, Dbl.abs] at hc
    · simp [Dbl.lt, Dbl.abs] at hc
    · simp only [Dbl.lt, Dbl.abs, abs_zero, decide_eq_true_eq] at hc
      exact absurd (abs_nonneg a) (not_le.2 hc)
  · exact absurd rfl hc

/-- The computed distances have a small relative error. -/
theorem nearest_of_distances (rnd : K → Dbl K) (u : K) (hu : 0 ≤ u) (ax : Axis K)
    (hv : ValidAxis ax.gridNode ax.grid ax.extent) (hne : ax.grid ≠ []) (v : K)
    (near : ∀ g ∈ ax.grid, ∃ d, distanceF rnd v g = .fin d ∧ (1 - u) * |v - g| ≤ d ∧ d ≤ (1 + u) * |v - g|) :
    ∃ (i : ℕ) (g : K), ax.findNearestIndexF rnd v = .ok i ∧ ax.grid[i]? = some g ∧
      ∀ (j : ℕ) (g' : K), ax.grid[j]? = some g' → (1 - u) * |v - g| ≤ (1 + u) * |v - g'| := by
  obtain ⟨i, g, h1, h2, h3⟩ := findNearestF_split_mem rnd hv hne v
  have hgm := List.mem_of_getElem? h2
  refine ⟨i, g, h1, h2, fun j g' hg' => ?_⟩
  have key : ∀ c ∈ ax.grid, |v - c| ≤ |v - g'| → ¬ (distanceF rnd v c).lt (distanceF rnd v g) = true →
      (1 - u) * |v - g| ≤ (1 + u) * |v - g'| := by
    intro c hcm hc hlt
    obtain ⟨d, e1, l1, -⟩ := near g hgm
    obtain ⟨d', e2, -, l2⟩ := near c hcm
    rw [e1, e2] at hlt
    simp only [Dbl.lt, decide_eq_true_eq, not_lt] at hlt
    have := mul_le_mul_of_nonneg_left hc (by linarith : 0 ≤ 1 + u)
    linarith
  rcases h3 j g' hg' with h | ⟨c, hcm, h, ⟨hc, -⟩ | ⟨hc, -⟩⟩
  · have := beyond_abs h
    have h4 := mul_nonneg hu (abs_nonneg (v - g))
    have h5 := mul_nonneg hu (abs_nonneg (v - g'))
    rw [sub_mul, add_mul, one_mul, one_mul]
    linarith
  · refine key c hcm (beyond_abs h) ?_
    obtain ⟨d, e1, -, -⟩ := near g hgm
    obtain ⟨d', e2, -, -⟩ := near c hcm
    rw [e1, e2] at hc ⊢
    simp only [Dbl.lt, decide_eq_true_eq, not_lt] at hc ⊢
    exact hc.le
  · exact key c hcm (beyond_abs h) (by simp [hc])

/-- C122: the true distance of the point found exceeds that of every other point at most by the relative error of two subtractions. -/
theorem nearest_rounded_near (rnd : K → Dbl K) (u : K) (A : Accurate rnd u) (ax : Axis K)
    (hv : ValidAxis ax.gridNode ax.grid ax.extent) (hne : ax.grid ≠ []) (v : K) :
    ∃ (i : ℕ) (g : K), ax.findNearestIndexF rnd v = .ok i ∧ ax.grid[i]? = some g ∧
      ∀ (j : ℕ) (g' : K), ax.grid[j]? = some g' → (1 - u) * |v - g| ≤ (1 + u) * |v - g'| :=
  nearest_of_distances rnd u A.nonneg ax hv hne v fun g _ => distance_near A v g

/-- C122: a point that is nearer than every other one by more than the error is found. -/
theorem nearest_rounded_exact (rnd : K → Dbl K) (u : K) (A : Accurate rnd u) (ax : Axis K)
    (hv : ValidAxis ax.gridNode ax.grid ax.extent) (v : K) (m : ℕ) (g : K) (hm : ax.grid[m]? = some g)
    (hsep : ∀ (j : ℕ) (g' : K), ax.grid[j]? = some g' → j ≠ m → (1 + u) * |v - g| < (1 - u) * |v - g'|) :
    ax.findNearestIndexF rnd v = .ok m := by
  have hne : ax.grid ≠ [] := by
    intro h
    rw [h] at hm
    simp at hm
  obtain ⟨i, g', h1, h2, h3⟩ := nearest_rounded_near rnd u A ax hv hne v
  by_cases him : i = m
  · rw [h1, him]
  · exact absurd (h3 m g hm) (not_le.2 (hsep i g' h2 him))

set_option maxHeartbeats 1000000 in
/-- C122: the error of the computed fractional index. -/
theorem value_to_index_rounded (rnd : K → Dbl K) (u : K) (A : Accurate rnd u) (hu8 : u ≤ 1 / 8) (ax : Axis K)
    (he : ax.extent.1 ≠ ax.extent.2) (v : K) :
    ∃ r, ax.valueToIndexLinearF rnd v = .ok (.fin r) ∧
      |r - ax.valueToIndexLinear v| ≤ u * (8 * |ax.valueToIndexLinear v + 1 / 2| + 1) := by
  have hu := A.nonneg
  have hd : ax.extent.2 - ax.extent.1 ≠ 0 := sub_ne_zero.2 he.symm
  obtain ⟨p, hp, ep⟩ := sub_near A v ax.extent.1
  obtain ⟨q, hq, eq⟩ := sub_near A ax.extent.2 ax.extent.1
  have hq0 : q ≠ 0 := by
    rintro rfl
    rw [zero_sub, abs_neg] at eq
    have := abs_pos.2 hd
    nlinarith
  generalize hD : ax.extent.2 - ax.extent.1 = D at hd eq
  generalize hP : v - ax.extent.1 = P at ep
  obtain ⟨t, ht, et⟩ := A.near (p / q)
  obtain ⟨m, hm, em⟩ := mul_near A t (ax.len : K)
  obtain ⟨r, hr, er⟩ := sub_near A m (1 / 2)
  refine ⟨r, ?_, ?_⟩
  · unfold Axis.valueToIndexLinearF
    rw [hp, hq]
    simp only [Dbl.div, if_neg hq0, bind, Except.bind, pure, Except.pure]
    rw [ht, hm]
    unfold half
    rw [hr]
  · have hx : ax.valueToIndexLinear v = P / D * (ax.len : K) - 1 / 2 := by
      unfold Axis.valueToIndexLinear
      rw [← hP, ← hD]
    rw [hx]
    set x := P / D with hxd
    have hDa := abs_pos.2 hd
    have hqa := abs_pos.2 hq0
    have hn : (0 : K) ≤ (ax.len : K) := Nat.cast_nonneg _
    have hPx : P = x * D := by rw [hxd, div_mul_cancel₀ _ hd]
    have hq1 : (1 - u) * |D| ≤ |q| := by
      have := abs_sub_abs_le_abs_sub D q
      rw [abs_sub_comm] at eq
      linarith
    -- the quotient of the differences
    have h1 : |p / q - x| ≤ 5 / 2 * u * |x| := by
      have e : p / q - x = ((p - P) - x * (q - D)) / q := by
        rw [hPx]
        field_simp
        ring
      rw [e, abs_div, div_le_iff₀ hqa]
      have a1 : |p - P - x * (q - D)| ≤ |p - P| + |x| * |q - D| := by
        rw [← abs_mul]
        exact abs_sub _ _
      have a2 : |p - P| ≤ u * (|x| * |D|) := by rw [← abs_mul, ← hPx]; exact ep
      have a3 := mul_le_mul_of_nonneg_left eq (abs_nonneg x)
      have a4 := mul_le_mul_of_nonneg_left hq1 (mul_nonneg hu (abs_nonneg x))
      have a5 : 0 ≤ u * |x| * |D| := mul_nonneg (mul_nonneg hu (abs_nonneg x)) hDa.le
      have a6 : u * (u * |x| * |D|) ≤ 1 / 8 * (u * |x| * |D|) := mul_le_mul_of_nonneg_right hu8 a5
      linarith
    have h2 : |t - x| ≤ 4 * u * |x| := by
      have b1 : |p / q| ≤ |x| + |p / q - x| := by linarith [abs_sub_abs_le_abs_sub (p / q) x]
      have b2 := abs_sub_le t (p / q) x
      have b3 := mul_le_mul_of_nonneg_left b1 hu
      have b4 := mul_le_mul_of_nonneg_left h1 hu
      have b5 : 0 ≤ u * |x| := mul_nonneg hu (abs_nonneg x)
      have b6 := mul_le_mul_of_nonneg_right hu8 b5
      linarith
    have h3 : |m - x * (ax.len : K)| ≤ 6 * u * (|x| * (ax.len : K)) := by
      have c0 : |t * (ax.len : K) - x * (ax.len : K)| ≤ 4 * u * |x| * (ax.len : K) := by
        rw [← sub_mul, abs_mul, abs_of_nonneg hn]
        exact mul_le_mul_of_nonneg_right h2 hn
      have c1 : |t * (ax.len : K)| ≤ |x| * (ax.len : K) + 4 * u * |x| * (ax.len : K) := by
        have := abs_sub_abs_le_abs_sub (t * (ax.len : K)) (x * (ax.len : K))
        rw [abs_mul x, abs_of_nonneg hn] at this
        linarith
      have c2 := abs_sub_le m (t * (ax.len : K)) (x * (ax.len : K))
      have c3 := mul_le_mul_of_nonneg_left c1 hu
      have c5 : 0 ≤ u * (|x| * (ax.len : K)) := mul_nonneg hu (mul_nonneg (abs_nonneg x) hn)
      have c6 := mul_le_mul_of_nonneg_right hu8 c5
      linarith
    have hX : |x * (ax.len : K) - 1 / 2 + 1 / 2| = |x| * (ax.len : K) := by
      rw [sub_add_cancel, abs_mul, abs_of_nonneg hn]
    rw [hX]
    generalize |x| * (ax.len : K) = X at *
    have d0 : 0 ≤ X := by rw [← hX]; exact abs_nonneg _
    have d1 : |m - 1 / 2| ≤ X + 6 * u * X + 1 / 2 := by
      have f1 := abs_sub_abs_le_abs_sub m (x * (ax.len : K))
      have f2 : |x * (ax.len : K)| = X := by rw [← hX, sub_add_cancel]
      have f3 := abs_sub m (1 / 2)
      have f4 : |(1 / 2 : K)| = 1 / 2 := abs_of_nonneg (by norm_num)
      linarith
    have d2 := abs_sub_le r (m - 1 / 2) (x * (ax.len : K) - 1 / 2)
    have d3 : |m - 1 / 2 - (x * (ax.len : K) - 1 / 2)| ≤ 6 * u * X := by
      rw [show m - 1 / 2 - (x * (ax.len : K) - 1 / 2) = m - x * (ax.len : K) by ring]
      exact h3
    have d4 := mul_le_mul_of_nonneg_left d1 hu
    have d5 : 0 ≤ u * X := mul_nonneg hu d0
    have d6 := mul_le_mul_of_nonneg_right hu8 d5
    linarith

/-- C122: on a uniform axis the computed fractional index of a grid point, rounded to the nearest integer, is the index of this point,
if the number of points times the relative error is small. -/
theorem value_to_index_rounded_grid (rnd : K → Dbl K) (u : K) (A : Accurate rnd u) (ax : Axis K)
    (hg : UniformGrid ax.extent.1 ax.extent.2 ax.grid) (he : ax.extent.1 ≠ ax.extent.2) (hn : u * (8 * ax.grid.length + 1) < 1 / 2)
    (i : ℕ) (g : K) (hi : ax.grid[i]? = some g) :
    ∃ r, ax.valueToIndexLinearF rnd g = .ok (.fin r) ∧ |r - i| < 1 / 2 ∧ round r = i := by
  have hlt : i < ax.grid.length := (List.getElem?_eq_some_iff.1 hi).1
  have hlt' : (i : K) + 1 ≤ ax.grid.length := by exact_mod_cast hlt
  have hi0 : (0 : K) ≤ i := Nat.cast_nonneg _
  have hu := A.nonneg
  have hu8 : u ≤ 1 / 8 := by
    have := mul_le_mul_of_nonneg_left (show (8 : K) ≤ 8 * ax.grid.length + 1 by linarith) hu
    linarith
  obtain ⟨r, h1, h2⟩ := value_to_index_rounded rnd u A hu8 ax he g
  rw [value_to_index_grid ax hg he i g hi, abs_of_nonneg (by linarith : (0 : K) ≤ i + 1 / 2)] at h2
  have h3 := mul_le_mul_of_nonneg_left (show 8 * ((i : K) + 1 / 2) + 1 ≤ 8 * ax.grid.length + 1 by linarith) hu
  have h4 : |r - i| < 1 / 2 := by linarith
  refine ⟨r, h1, h4, ?_⟩
  rw [abs_lt] at h4
  rw [round_eq, Int.floor_eq_iff]
  push_cast
  constructor <;> linarith

end

/-! ### Examples -/

/-- Numbers with 53 binary digits, rounded to the nearest one, without limits of the exponent. -/
def nearest53 (x : ℚ) : Dbl ℚ := .fin (round (x / 2 ^ (Int.log 2 |x| - 52)) * 2 ^ (Int.log 2 |x| - 52))

theorem nearest53_accurate : Accurate nearest53 (1 / 2 ^ 53) where
  nonneg := by norm_num
  near x := by
    refine ⟨_, rfl, ?_⟩
    have hpos : (0 : ℚ) < 2 ^ (Int.log 2 |x| - 52) := zpow_pos (by norm_num) _
    generalize hs : (2 : ℚ) ^ (Int.log 2 |x| - 52) = t at hpos
    have h1 := abs_sub_round (x / t)
    have h3 : x / t * t = x := div_mul_cancel₀ _ hpos.ne'
    by_cases hx : x = 0
    · subst hx
      simp
    have h4 : t ≤ 1 / 2 ^ 52 * |x| := by
      have := Int.zpow_log_le_self (b := 2) (by norm_num) (abs_pos.2 hx)
      rw [← hs, zpow_sub₀ (by norm_num)]
      push_cast at this
      have e : (2 : ℚ) ^ (52 : ℤ) = 2 ^ 52 := by norm_num
      rw [e]
      calc (2 : ℚ) ^ Int.log 2 |x| / 2 ^ 52 ≤ |x| / 2 ^ 52 := div_le_div_of_nonneg_right this (by norm_num)
        _ = _ := by ring
    have h5 : |(round (x / t) : ℚ) * t - x| ≤ 1 / 2 * t := by
      have e : (round (x / t) : ℚ) * t - x = ((round (x / t) : ℚ) - x / t) * t := by rw [sub_mul, h3]
      rw [e, abs_mul, abs_of_pos hpos, abs_sub_comm]
      exact mul_le_mul_of_nonneg_right h1 hpos.le
    linarith

/-- C19, the nearest point is found, holds only up to the rounding: with numbers of 53 binary digits the grid -1, 1 and the value -2⁻⁶⁰,
all of them exact, the point 1 is found. -/
theorem nearest_rounded_violated :
    nearest53 (-1 / 2 ^ 60) = .fin (-1 / 2 ^ 60) ∧
    (⟨"", "", [-2, 0, 2], [-1, 1], (-2, 2)⟩ : Axis ℚ).findNearestIndexF nearest53 (-1 / 2 ^ 60) = .ok 1 ∧
    (⟨"", "", [-2, 0, 2], [-1, 1], (-2, 2)⟩ : Axis ℚ).findNearestIndex (-1 / 2 ^ 60) = .ok 0 := by decide +kernel

example := nearest_rounded fixedPoint fixedPoint_rounding axisSample valid_sample (by decide) (7 / 5)
example := nearest_rounded fixedPoint fixedPoint_rounding axisDown valid_down (by decide) (2 ^ 40)
example := nearest_rounded_grid_point nearest53 (by decide +kernel) axisDown valid_down 1 (3 / 2) rfl
example := nearest_rounded_near nearest53 _ nearest53_accurate axisSample valid_sample (by decide) (7 / 5)
example : axisDown.findNearestIndexF nearest53 (7 / 5) = .ok 1 :=
  nearest_rounded_exact nearest53 _ nearest53_accurate axisDown valid_down (7 / 5) 1 (3 / 2) rfl (by
    intro j g hj hne
    rcases j with _ | _ | _ | j
    · cases hj; decide +kernel
    · exact absurd rfl hne
    · cases hj; decide +kernel
    · simp [axisDown] at hj)
example := value_to_index_rounded nearest53 _ nearest53_accurate (by norm_num) axisDown (by decide +kernel) (7 / 5)
example := value_to_index_rounded_grid nearest53 _ nearest53_accurate axisSample uniform_sample (by decide +kernel) (by decide +kernel)
  1 (3 / 2) rfl

end Postpic.Props
