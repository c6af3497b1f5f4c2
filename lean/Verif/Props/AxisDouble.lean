import Verif.Props.AxisFloat
import Verif.Props.HistogramDouble

/-!
# Coordinates are looked up correctly with IEEE doubles
-/

set_option autoImplicit false
set_option linter.unusedSectionVars false

namespace Postpic.Props

open Postpic Postpic.Spec Postpic.Axes Postpic.Histogram

section

variable {K : Type} [Field K] [LinearOrder K] [IsStrictOrderedRing K] [FloorRing K] {rnd : K → Dbl K} {u E B : K}

/-- A result which is not too large: the error is relative or as small as the smallest normal number. -/
theorem limited_any (L : Limited rnd u E B) (hE : 0 ≤ E) (x : K) (hx : |x| < B) :
    ∃ y, rnd x = .fin y ∧ |y - x| ≤ u * |x| + 2 * E := by
  by_cases h : E ≤ |x|
  · obtain ⟨y, h1, h2⟩ := L.near x h hx
    exact ⟨y, h1, by linarith⟩
  · rw [not_le] at h
    obtain ⟨y, h1, h2, -⟩ := L.small x h
    refine ⟨y, h1, ?_⟩
    have h3 := abs_sub y x
    have h4 := mul_nonneg L.nonneg (abs_nonneg x)
    linarith

/-- A difference of numbers which the rounding does not change. -/
theorem limited_sub (L : Limited rnd u E B) {a b : K} (ha : rnd a = .fin a) (hb : rnd b = .fin b) (h : |a - b| < B) :
    ∃ y, Dbl.sub rnd (.fin a) (.fin b) = .fin y ∧ |y - (a - b)| ≤ u * |a - b| := by
  rw [sub_eq_add_neg] at h ⊢
  exact L.sum a (-b) ha (L.neg b hb) h

theorem distance_limited (L : Limited rnd u E B) {v g : K} (hv : rnd v = .fin v) (hg : rnd g = .fin g) (h : |v - g| < B) :
    ∃ d, distanceF rnd v g = .fin d ∧ (1 - u) * |v - g| ≤ d ∧ d ≤ (1 + u) * |v - g| := by
  obtain ⟨y, hy, he⟩ := limited_sub L hv hg h
  unfold distanceF
  rw [hy]
  refine ⟨|y|, rfl, ?_, ?_⟩
  · have := abs_sub_abs_le_abs_sub (v - g) y
    rw [abs_sub_comm] at he
    linarith
  · have := abs_sub_abs_le_abs_sub y (v - g)
    linarith

set_option maxHeartbeats 1000000 in
theorem value_to_index_limited (L : Limited rnd u E B) (hE : 0 ≤ E) (hu8 : u ≤ 1 / 8) (ax : Axis K)
    (he : ax.extent.1 ≠ ax.extent.2) (v : K) (hv : rnd v = .fin v) (h1 : rnd ax.extent.1 = .fin ax.extent.1)
    (h2 : rnd ax.extent.2 = .fin ax.extent.2) (hvB : |v - ax.extent.1| < B) (heB : |ax.extent.2 - ax.extent.1| < B)
    (hB : 4 * ((|(v - ax.extent.1) / (ax.extent.2 - ax.extent.1)| + E) * ((ax.len : K) + 1) + 1) ≤ B) :
    ∃ r, ax.valueToIndexLinearF rnd v = .ok (.fin r) ∧
      |r - ax.valueToIndexLinear v| ≤ u * (8 * |ax.valueToIndexLinear v + 1 / 2| + 1) + 5 * E * ((ax.len : K) + 1) := by
  have hu := L.nonneg
  have hd : ax.extent.2 - ax.extent.1 ≠ 0 := sub_ne_zero.2 he.symm
  obtain ⟨p, hp, ep⟩ := limited_sub L hv h1 hvB
  obtain ⟨q, hq, eq⟩ := limited_sub L h2 h1 heB
  have hq0 : q ≠ 0 := by
    rintro rfl
    rw [zero_sub, abs_neg] at eq
    have := abs_pos.2 hd
    nlinarith
  have hx : ax.valueToIndexLinear v = (v - ax.extent.1) / (ax.extent.2 - ax.extent.1) * (ax.len : K) - 1 / 2 := rfl
  rw [hx]
  generalize ax.extent.2 - ax.extent.1 = D at hd eq hB ⊢
  generalize v - ax.extent.1 = P at ep hB ⊢
  set x := P / D with hxd
  have hDa := abs_pos.2 hd
  have hqa := abs_pos.2 hq0
  have hn : (0 : K) ≤ (ax.len : K) := Nat.cast_nonneg _
  have hPx : P = x * D := by rw [hxd, div_mul_cancel₀ _ hd]
  have hxa := abs_nonneg x
  have hux : 0 ≤ u * |x| := mul_nonneg hu hxa
  have hux8 := mul_le_mul_of_nonneg_right hu8 hxa
  have hX0 : 0 ≤ |x| * (ax.len : K) := mul_nonneg hxa hn
  have hEn0 : 0 ≤ E * (ax.len : K) := mul_nonneg hE hn
  have hB' : 4 * (|x| * (ax.len : K) + |x| + E * (ax.len : K) + E + 1) ≤ B := by
    refine le_trans (le_of_eq ?_) hB
    ring
  have hq1 : (1 - u) * |D| ≤ |q| := by
    have := abs_sub_abs_le_abs_sub D q
    rw [abs_sub_comm] at eq
    linarith
  -- the quotient of the differences
  have e1 : |p / q - x| ≤ 5 / 2 * u * |x| := by
    have e : p / q - x = ((p - P) - x * (q - D)) / q := by
      rw [hPx]
      field_simp
      ring
    rw [e, abs_div, div_le_iff₀ hqa]
    have a1 : |p - P - x * (q - D)| ≤ |p - P| + |x| * |q - D| := by
      rw [← abs_mul]
      exact abs_sub _ _
    have a2 : |p - P| ≤ u * (|x| * |D|) := by rw [← abs_mul, ← hPx]; exact ep
    have a3 := mul_le_mul_of_nonneg_left eq (abs_nonneg x)
    have a4 := mul_le_mul_of_nonneg_left hq1 (mul_nonneg hu (abs_nonneg x))
    have a5 : 0 ≤ u * |x| * |D| := mul_nonneg (mul_nonneg hu (abs_nonneg x)) hDa.le
    have a6 : u * (u * |x| * |D|) ≤ 1 / 8 * (u * |x| * |D|) := mul_le_mul_of_nonneg_right hu8 a5
    linarith
  have b1 : |p / q| ≤ |x| + |p / q - x| := by linarith [abs_sub_abs_le_abs_sub (p / q) x]
  obtain ⟨t, ht, et⟩ := limited_any L hE (p / q) (by linarith)
  have e2 : |t - x| ≤ 4 * u * |x| + 2 * E := by
    have b2 := abs_sub_le t (p / q) x
    have b3 := mul_le_mul_of_nonneg_left b1 hu
    have b4 := mul_le_mul_of_nonneg_left e1 hu
    have b6 := mul_le_mul_of_nonneg_right hu8 hux
    linarith
  have e3 : |t * (ax.len : K) - x * (ax.len : K)| ≤ 4 * (u * (|x| * (ax.len : K))) + 2 * (E * (ax.len : K)) := by
    rw [← sub_mul, abs_mul, abs_of_nonneg hn]
    refine le_trans (mul_le_mul_of_nonneg_right e2 hn) (le_of_eq ?_)
    ring
  have huX : 0 ≤ u * (|x| * (ax.len : K)) := mul_nonneg hu hX0
  have huX8 := mul_le_mul_of_nonneg_right hu8 hX0
  have c1 : |t * (ax.len : K)| ≤ |x| * (ax.len : K) + 4 * (u * (|x| * (ax.len : K))) + 2 * (E * (ax.len : K)) := by
    have := abs_sub_abs_le_abs_sub (t * (ax.len : K)) (x * (ax.len : K))
    rw [abs_mul x, abs_of_nonneg hn] at this
    linarith
  obtain ⟨m, hm, em⟩ := limited_any L hE (t * (ax.len : K)) (by linarith)
  have hXe : |x * (ax.len : K) - 1 / 2 + 1 / 2| = |x| * (ax.len : K) := by
    rw [sub_add_cancel, abs_mul, abs_of_nonneg hn]
  have hXa : |x * (ax.len : K)| = |x| * (ax.len : K) := by rw [abs_mul, abs_of_nonneg hn]
  rw [hXe]
  generalize |x| * (ax.len : K) = X at *
  generalize hF : E * (ax.len : K) = F at *
  have huF := mul_le_mul_of_nonneg_right hu8 hEn0
  have huE := mul_le_mul_of_nonneg_right hu8 hE
  have huX2 := mul_le_mul_of_nonneg_right hu8 huX
  have e4 : |m - x * (ax.len : K)| ≤ 6 * (u * X) + 9 / 4 * F + 2 * E := by
    have c2 := abs_sub_le m (t * (ax.len : K)) (x * (ax.len : K))
    have c3 := mul_le_mul_of_nonneg_left c1 hu
    linarith
  have d1 : |m - 1 / 2| ≤ X + 6 * (u * X) + 9 / 4 * F + 2 * E + 1 / 2 := by
    have f1 := abs_sub_abs_le_abs_sub m (x * (ax.len : K))
    have f3 := abs_sub m (1 / 2)
    have f4 : |(1 / 2 : K)| = 1 / 2 := abs_of_nonneg (by norm_num)
    linarith
  obtain ⟨r, hr, er⟩ := limited_any L hE (m - 1 / 2) (by linarith)
  refine ⟨r, ?_, ?_⟩
  · unfold Axis.valueToIndexLinearF
    rw [hp, hq]
    simp only [Dbl.div, if_neg hq0, bind, Except.bind, pure, Except.pure]
    have hm' : Dbl.mul rnd (.fin t) (.fin (ax.len : K)) = .fin m := hm
    have hr' : Dbl.sub rnd (.fin m) half = .fin r := by
      rw [sub_eq_add_neg] at hr
      exact hr
    rw [ht, hm', hr']
  · have d2 := abs_sub_le r (m - 1 / 2) (x * (ax.len : K) - 1 / 2)
    have d3 : |m - 1 / 2 - (x * (ax.len : K) - 1 / 2)| ≤ 6 * (u * X) + 9 / 4 * F + 2 * E := by
      rw [show m - 1 / 2 - (x * (ax.len : K) - 1 / 2) = m - x * (ax.len : K) by ring]
      exact e4
    have d4 := mul_le_mul_of_nonneg_left d1 hu
    have d5 : 5 * E * ((ax.len : K) + 1) = 5 * F + 5 * E := by rw [← hF]; ring
    rw [d5]
    linarith

end

/-! ### Doubles -/

theorem small_diff {a b : ℚ} (ha : |a| < 2 ^ 1022) (hb : |b| < 2 ^ 1022) : |a - b| < 2 ^ 1023 := by
  have := abs_sub a b
  have e : (2 : ℚ) ^ 1023 = 2 ^ 1022 + 2 ^ 1022 := by rw [← two_mul, ← pow_succ']
  rw [e]
  exact lt_of_le_of_lt this (add_lt_add ha hb)

/-- C134: for doubles below `2^1022` the point found is nearest but for the relative error of two subtractions, although these can underflow. -/
theorem nearest_double (ax : Axis ℚ) (hv : ValidAxis ax.gridNode ax.grid ax.extent) (hne : ax.grid ≠ [])
    (hg : ∀ g ∈ ax.grid, double g = .fin g ∧ |g| < 2 ^ 1022) (v : ℚ) (hd : double v = .fin v) (hvB : |v| < 2 ^ 1022) :
    ∃ (i : ℕ) (g : ℚ), ax.findNearestIndexF double v = .ok i ∧ ax.grid[i]? = some g ∧
      ∀ (j : ℕ) (g' : ℚ), ax.grid[j]? = some g' → (1 - 1 / 2 ^ 53) * |v - g| ≤ (1 + 1 / 2 ^ 53) * |v - g'| :=
  nearest_of_distances double _ double_limited.nonneg ax hv hne v fun g h =>
    distance_limited double_limited hd (hg g h).1 (small_diff hvB (hg g h).2)

/-- C134: a point that is nearer than every other one by more than the error is found. -/
theorem nearest_double_exact (ax : Axis ℚ) (hv : ValidAxis ax.gridNode ax.grid ax.extent)
    (hg : ∀ g ∈ ax.grid, double g = .fin g ∧ |g| < 2 ^ 1022) (v : ℚ) (hd : double v = .fin v) (hvB : |v| < 2 ^ 1022) (m : ℕ) (g : ℚ)
    (hm : ax.grid[m]? = some g)
    (hsep : ∀ (j : ℕ) (g' : ℚ), ax.grid[j]? = some g' → j ≠ m → (1 + 1 / 2 ^ 53) * |v - g| < (1 - 1 / 2 ^ 53) * |v - g'|) :
    ax.findNearestIndexF double v = .ok m := by
  have hne : ax.grid ≠ [] := by
    intro h
    rw [h] at hm
    simp at hm
  obtain ⟨i, g', h1, h2, h3⟩ := nearest_double ax hv hne hg v hd hvB
  by_cases him : i = m
  · rw [h1, him]
  · exact absurd (h3 m g hm) (not_le.2 (hsep i g' h2 him))

/-- C134: the error of the computed fractional index, for doubles below `2^1022` which are at most `2^900` lengths of the axis away, and at most
`2^53` points. -/
theorem value_to_index_double (ax : Axis ℚ) (he : ax.extent.1 ≠ ax.extent.2) (h1 : double ax.extent.1 = .fin ax.extent.1)
    (h2 : double ax.extent.2 = .fin ax.extent.2) (h1B : |ax.extent.1| < 2 ^ 1022) (h2B : |ax.extent.2| < 2 ^ 1022)
    (hn : ax.len ≤ 2 ^ 53) (v : ℚ) (hv : double v = .fin v) (hvB : |v| < 2 ^ 1022)
    (hfar : |v - ax.extent.1| ≤ 2 ^ 900 * |ax.extent.2 - ax.extent.1|) :
    ∃ r, ax.valueToIndexLinearF double v = .ok (.fin r) ∧
      |r - ax.valueToIndexLinear v| ≤ 1 / 2 ^ 53 * (8 * |ax.valueToIndexLinear v + 1 / 2| + 2) := by
  have hE0 : (0 : ℚ) ≤ 2 ^ (-1022 : ℤ) := zpow_nonneg (by norm_num) _
  have hE1 : (2 : ℚ) ^ (-1022 : ℤ) ≤ 2 ^ (-200 : ℤ) := zpow_le_zpow_right₀ (by norm_num) (by norm_num)
  have hd : 0 < |ax.extent.2 - ax.extent.1| := abs_pos.2 (sub_ne_zero.2 he.symm)
  have hx : |(v - ax.extent.1) / (ax.extent.2 - ax.extent.1)| ≤ 2 ^ 900 := by
    rw [abs_div, div_le_iff₀ hd]
    exact hfar
  have hlen : (ax.len : ℚ) + 1 ≤ 2 ^ 54 := by
    have : (ax.len : ℚ) ≤ (2 ^ 53 : ℕ) := by exact_mod_cast hn
    refine le_trans (add_le_add_left this 1) ?_
    norm_num
  have hlen0 : (0 : ℚ) ≤ (ax.len : ℚ) + 1 := add_nonneg (Nat.cast_nonneg _) zero_le_one
  have hE2 : (2 : ℚ) ^ (-200 : ℤ) ≤ 1 := by norm_num
  obtain ⟨r, r1, r2⟩ := value_to_index_limited double_limited hE0 (by norm_num) ax he v hv h1 h2
    (small_diff hvB h1B) (small_diff h2B h1B) (by
      have k1 : |(v - ax.extent.1) / (ax.extent.2 - ax.extent.1)| + 2 ^ (-1022 : ℤ) ≤ 2 ^ 900 + 1 :=
        add_le_add hx (hE1.trans hE2)
      have k2 := mul_le_mul k1 hlen hlen0 (add_nonneg (pow_nonneg (by norm_num) 900) (by norm_num))
      have k3 : (4 : ℚ) * ((2 ^ 900 + 1) * 2 ^ 54 + 1) ≤ 2 ^ 1023 := by decide +kernel
      refine le_trans ?_ k3
      exact mul_le_mul_of_nonneg_left (add_le_add_left k2 1) (by norm_num))
  refine ⟨r, r1, r2.trans ?_⟩
  have k4 : 5 * (2 : ℚ) ^ (-1022 : ℤ) * ((ax.len : ℚ) + 1) ≤ 5 * 2 ^ (-200 : ℤ) * 2 ^ 54 :=
    mul_le_mul (mul_le_mul_of_nonneg_left hE1 (by norm_num)) hlen hlen0 (by norm_num)
  have k5 : 5 * (2 : ℚ) ^ (-200 : ℤ) * 2 ^ 54 ≤ 1 / 2 ^ 53 := by norm_num
  have k6 := k4.trans k5
  refine le_trans (add_le_add_right k6 _) (le_of_eq ?_)
  ring

/-! ### Examples -/

example := nearest_double axisDown valid_down (by decide) (by decide +kernel) (1 / 2 ^ 1074) (by decide +kernel) (by decide +kernel)

example : axisDown.findNearestIndexF double (11 / 8) = .ok 1 :=
  nearest_double_exact axisDown valid_down (by decide +kernel) (11 / 8) (by decide +kernel) (by decide +kernel) 1 (3 / 2) rfl (by
    intro j g hj hne
    rcases j with _ | _ | _ | j
    · cases hj; decide +kernel
    · exact absurd rfl hne
    · cases hj; decide +kernel
    · simp [axisDown] at hj)

example := value_to_index_double axisDown (by decide +kernel) (by decide +kernel) (by decide +kernel) (by decide +kernel) (by decide +kernel)
  (by decide) (1 / 2 ^ 1074) (by decide +kernel) (by decide +kernel) (by decide +kernel)

end Postpic.Props
