import Verif.Props.LinearDouble

/-!
# C143: the spacing of an axis with IEEE doubles
-/

set_option autoImplicit false

namespace Postpic.Props

open Postpic Postpic.Spec Postpic.Axes Postpic.Histogram Postpic.Statistics

/-- The nodes of an axis made from extent and number of points. -/
theorem nodes_of_extent {centers : List (Dbl ℚ) → List (Dbl ℚ)} {e0 e1 : ℚ} {n : ℕ} {nodes grid : List (Dbl ℚ)}
    (h : axisFromExtentF double centers e0 e1 n = .ok (nodes, grid)) : linspaceF double e0 e1 (n + 1) = nodes := by
  unfold axisFromExtentF at h
  simp only [bind, Except.bind] at h
  cases hgr : gridOfNodesF double centers (linspaceF double e0 e1 (n + 1)) with
  | error e => rw [hgr] at h; cases h
  | ok gr =>
    rw [hgr] at h
    simp only at h
    revert h
    split_ifs <;> intro h
    all_goals first
      | (cases h; done)
      | (simp only [pure, Except.pure, Except.ok.injEq, Prod.mk.injEq] at h; exact h.1)

/-- The difference of two doubles is rounded by at most `2^(-53)`, also if it is subnormal. -/
theorem sub_double_near {a b : ℚ} (da : double a = .fin a) (db : double b = .fin b) (hb : |b| < 2 ^ 1023) (hs : |a - b| < 2 ^ 1023) :
    ∃ d : ℚ, Dbl.sub double (.fin a) (.fin b) = .fin d ∧ |d - (a - b)| ≤ 1 / 2 ^ 53 * |a - b| := by
  have hnb : nearDouble b = b := (Dbl.fin.inj (db.symm.trans (double_small hb))).symm
  have hb' : |(-b)| < 2 ^ 1023 := by rwa [abs_neg]
  have hneg : double (-b) = .fin (-b) := by rw [double_small hb', nearDouble_neg, hnb]
  have hs' : |a + -b| < 2 ^ 1023 := (sub_eq_add_neg a b) ▸ hs
  obtain ⟨d, hd, hd'⟩ := digits53_accurate.near (a - b)
  refine ⟨d, ?_, hd'⟩
  show double (a + -b) = _
  rw [double_add da hneg hs', ← sub_eq_add_neg, hd]

/-- C143: an axis made from extent and number of points has a spacing, and it is the length of the extent divided by the number of points, up to an error of
eight roundings of the coordinates. Partial: the error is relative to the coordinates, not to the spacing (`axis_spacing_double_violated`). -/
theorem axis_spacing_double_partial (centers : List (Dbl ℚ) → List (Dbl ℚ)) (e0 e1 : ℚ) (n : ℕ) (hn1 : 1 ≤ n) (hn : n ≤ 2 ^ 52) (he : e0 ≠ e1)
    (d0 : double e0 = .fin e0) (d1 : double e1 = .fin e1) (m0 : Moderate (-900) 900 e0) (m1 : Moderate (-900) 900 e1)
    (nodes grid : List (Dbl ℚ)) (h : axisFromExtentF double centers e0 e1 n = .ok (nodes, grid)) :
    ∃ s : ℚ, axisSpacingF double nodes = .ok (.fin s) ∧ |s - |e1 - e0| / n| ≤ 8 * (1 / 2 ^ 53) * (|e0| + |e1|) := by
  obtain ⟨ys, a1, a2, -, a4⟩ := linspace_agree d0 d1 m0 m1 hn1 hn
  have hnodes := nodes_of_extent h
  have h0 : digits53 e0 = .fin e0 := by
    rw [← double_digits53 (moderate_lt (by norm_num) m0) (Or.inr (double_multiple d0))]
    exact d0
  obtain ⟨y, b1, b2, -, b4⟩ := linspaceF_near digits53_accurate (by norm_num) e0 e1 he h0 n hn1
  have hys : ys = (List.range (n + 1)).map y := List.map_injective_iff.2 (fun u v huv => by cases huv; rfl) (a2.symm.trans b1)
  have hlin : axisIsLinearF double nodes = true := by
    rw [← hnodes, a1] at h ⊢
    exact axis_from_extent_linear_double centers e0 e1 n ys grid h fun z hz =>
      le_trans (a4 z hz).2.1 (zpow_le_zpow_right₀ (by norm_num) (by norm_num))
  have hy0 := a4 (y 0) (by rw [hys]; exact List.mem_map_of_mem (List.mem_range.2 (by omega)))
  have hy1 := a4 (y 1) (by rw [hys]; exact List.mem_map_of_mem (List.mem_range.2 (by omega)))
  have hsm : |y 1 - y 0| < 2 ^ 1023 := by
    have t2 : (2 : ℚ) ^ (954 : ℤ) + 2 ^ (954 : ℤ) = 2 ^ (955 : ℤ) := by
      rw [show (955 : ℤ) = 954 + 1 by norm_num, zpow_add_one₀ (by norm_num)]
      ring
    have t3 : (2 : ℚ) ^ (955 : ℤ) < 2 ^ 1023 := zpow_lt_1023 (by norm_num)
    refine lt_of_le_of_lt (le_trans (abs_sub _ _) (add_le_add hy1.2.1 hy0.2.1)) ?_
    rw [t2]
    exact t3
  obtain ⟨d, hd, hd'⟩ := sub_double_near hy1.1 hy0.1 (lt_of_le_of_lt hy0.2.1 (zpow_lt_1023 (by norm_num))) hsm
  refine ⟨|d|, ?_, ?_⟩
  · obtain ⟨m, rfl⟩ : ∃ m, n = m + 1 := ⟨n - 1, by omega⟩
    have hform : nodes = .fin (y 0) :: .fin (y 1) :: (((List.range m).map fun i => y (i + 1 + 1)).map Dbl.fin) := by
      rw [← hnodes, a1, hys, List.range_succ_eq_map, List.range_succ_eq_map]
      simp [Function.comp_def]
    unfold axisSpacingF
    rw [if_pos hlin, hform]
    show Except.ok (Dbl.abs (Dbl.sub double (.fin (y 1)) (.fin (y 0)))) = _
    rw [hd]
    rfl
  · have c1 := b4 1 hn1
    rw [b2] at hd'
    have hnp : (1 : ℚ) ≤ n := by exact_mod_cast hn1
    have e : |e1 - e0| / n = |(e1 - e0) / n| := by rw [abs_div, abs_of_pos (by linarith : (0 : ℚ) < n)]
    have c2 : |(e1 - e0) / n| ≤ |e0| + |e1| := by
      rw [← e]
      refine le_trans (div_le_self (abs_nonneg _) hnp) ?_
      rw [add_comm]
      exact abs_sub _ _
    have c3 := abs_abs_sub_abs_le d ((e1 - e0) / n)
    have c4 := abs_sub_le d (y 1 - e0) ((e1 - e0) / n)
    have c5 : y 1 - e0 - (e1 - e0) / n = y 1 - (e0 + (1 : ℕ) * ((e1 - e0) / n)) := by push_cast; ring
    rw [c5] at c4
    have c6 := abs_sub_abs_le_abs_sub (y 1 - e0) ((e1 - e0) / n)
    rw [c5] at c6
    rw [e]
    clear hsm hy0 hy1 a4 hd m0 m1
    have hS : 0 ≤ |e0| + |e1| := add_nonneg (abs_nonneg _) (abs_nonneg _)
    generalize |e0| + |e1| = S at *
    norm_num at c1 hd' c4 c6 ⊢
    linarith

/-! ### Examples and violations -/

/-- C143 violated: the spacing of an axis far from 0 is the difference of rounded nodes. With the extent from 2⁵⁰ to 2⁵⁰ + 1 and three points the spacing is
1/4, although a third is meant: three cells are shorter than the axis by a quarter. The axis is made without an error. -/
theorem axis_spacing_double_violated :
    axisFromExtentF double meansD (2 ^ 50) (2 ^ 50 + 1) 3 =
      .ok (linspaceF double (2 ^ 50) (2 ^ 50 + 1) (3 + 1), meansD (linspaceF double (2 ^ 50) (2 ^ 50 + 1) (3 + 1))) ∧
    axisSpacingF double (linspaceF double (2 ^ 50) (2 ^ 50 + 1) (3 + 1)) = .ok (.fin (1 / 4)) := by decide +kernel

example := axis_spacing_double_partial meansD 1 2 10 (by norm_num) (by norm_num) (by norm_num) (by decide +kernel) (by decide +kernel)
  (by decide +kernel) (by decide +kernel) (linspaceF double 1 2 (10 + 1)) (meansD (linspaceF double 1 2 (10 + 1))) (by decide +kernel)

end Postpic.Props
