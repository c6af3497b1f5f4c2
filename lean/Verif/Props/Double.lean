import Verif.Lemmas.Double
import Verif.Props.StatisticsFloat

/-!
# C128: histograms of particles at the same position, with the doubles of IEEE 754
-/

set_option autoImplicit false

namespace Postpic.Props

open Postpic Postpic.Spec Postpic.Histogram

/-! ### Doubles meet the assumptions about rounding made in C98, C118, C122 and C125 -/

theorem double_fin {x : ℚ} (h : |nearDouble x| < 2 ^ 1024) : double x = .fin (nearDouble x) := if_neg (not_le.2 h)

theorem nearDouble_zero : nearDouble 0 = 0 := by
  have := nearDouble_exact 0 0 (by norm_num) (by norm_num)
  simpa using this

theorem nearDouble_sign {x : ℚ} (h : nearDouble x < 0) : x < 0 := by
  by_contra hx
  exact absurd (nearDouble_nonneg (not_lt.1 hx)) (not_le.2 h)

/-- C128: rounding to doubles is monotonic, also when it overflows, and exact for small half-integers. -/
theorem double_rounding : Rounding double where
  mono x y h := by
    have hm := nearDouble_mono h
    unfold double
    by_cases hx : 2 ^ 1024 ≤ |nearDouble x| <;> by_cases hy : 2 ^ 1024 ≤ |nearDouble y|
    · rw [if_pos hx, if_pos hy]
      simp only [Dbl.le, Bool.or_eq_true, decide_eq_true_eq, Bool.not_eq_true', decide_eq_false_iff_not]
      by_cases hx0 : x < 0
      · exact .inl hx0
      · exact .inr fun hy0 => hx0 (lt_of_le_of_lt h hy0)
    · rw [if_pos hx, if_neg hy]
      simp only [Dbl.le, decide_eq_true_eq]
      refine nearDouble_sign ?_
      by_contra h0
      rw [abs_of_nonneg (not_lt.1 h0)] at hx
      exact hy (hx.trans (hm.trans (le_abs_self _)))
    · rw [if_neg hx, if_pos hy]
      simp only [Dbl.le, Bool.not_eq_true', decide_eq_false_iff_not]
      intro hy0
      have h1 : nearDouble y ≤ 0 := by
        have := nearDouble_mono hy0.le
        rwa [nearDouble_zero] at this
      rw [abs_of_nonpos h1] at hy
      refine hx (hy.trans ?_)
      rw [abs_of_nonpos (hm.trans h1)]
      linarith
    · rw [if_neg hx, if_neg hy]
      exact decide_eq_true hm
  exact n hn := by
    have h := nearDouble_exact n (-1) (le_trans hn (by norm_num)) (by norm_num)
    rw [zpow_neg_one, ← div_eq_mul_inv] at h
    have hn' : |(n : ℚ)| ≤ 2 ^ 32 := by exact_mod_cast hn
    rw [double_fin, h]
    rw [h, abs_div, abs_of_pos (by norm_num : (0 : ℚ) < 2)]
    refine lt_of_le_of_lt (div_le_self (abs_nonneg _) (by norm_num)) (lt_of_le_of_lt hn' ?_)
    exact pow_lt_pow_right₀ (by norm_num) (by norm_num)

/-- C128: doubles are not changed. -/
theorem double_format : Format double where
  mono x y x' y' h hx hy := by
    unfold double at hx hy
    split_ifs at hx hy
    cases hx
    cases hy
    exact nearDouble_mono h
  idem x y h := by
    unfold double at h
    split_ifs at h with hx
    cases h
    rw [double_fin (by rw [nearDouble_idem]; exact not_le.1 hx), nearDouble_idem]

/-- C128: the error of rounding, for numbers which do not overflow: half of the last of 53 digits, or `2^(-1075)`. -/
theorem double_near (x : ℚ) (hx : |x| < 2 ^ 1023) : ∃ y, double x = .fin y ∧ |y - x| ≤ max (1 / 2 ^ 53 * |x|) (1 / 2 ^ 1075) := by
  refine ⟨nearDouble x, double_fin ?_, nearDouble_error x⟩
  have h1 := nearDouble_exact 1 1023 (by norm_num) (by norm_num)
  rw [Int.cast_one, one_mul, show (2 : ℚ) ^ (1023 : ℤ) = 2 ^ 1023 from zpow_natCast 2 1023] at h1
  have h2 := abs_lt.1 hx
  have h3 := nearDouble_mono h2.2.le
  have h4 := nearDouble_mono h2.1.le
  rw [nearDouble_neg] at h4
  rw [h1] at h3 h4
  have h5 : |nearDouble x| ≤ 2 ^ 1023 := abs_le.2 ⟨h4, h3⟩
  exact lt_of_le_of_lt h5 (pow_lt_pow_right₀ (by norm_num) (by norm_num))

/-- Whole multiples of powers of two with 53 digits are doubles. -/
theorem double_exact {x : ℚ} (m e : ℤ) (hm : |m| ≤ 2 ^ 53) (he : -1074 ≤ e) (hx : x = m * 2 ^ e) (h : |x| < 2 ^ 1024) :
    double x = .fin x := by
  subst hx
  rw [double_fin, nearDouble_exact m e hm he]
  rwa [nearDouble_exact m e hm he]

/-! ### All particles at the same position -/

/-- The digits of a double which is not subnormal. -/
theorem double_digits {x : ℚ} (hd : double x = .fin x) (h1 : 2 ^ (-1022 : ℤ) ≤ x) :
    lastDigit x = Int.log 2 x - 52 ∧ ∃ m : ℤ, 0 < m ∧ m < 2 ^ 53 ∧ x = m * 2 ^ lastDigit x := by
  have hx : 0 < x := lt_of_lt_of_le (two_zpow_pos _) h1
  have hlog : -1022 ≤ Int.log 2 x := (Int.zpow_le_iff_le_log (b := 2) (by norm_num) hx).1 (by exact_mod_cast h1)
  have hl : lastDigit x = Int.log 2 x - 52 := by
    unfold lastDigit
    rw [abs_of_pos hx]
    omega
  have hp := two_zpow_pos (lastDigit x)
  refine ⟨hl, roundEven (x / 2 ^ lastDigit x), ?_⟩
  have he : x = roundEven (x / 2 ^ lastDigit x) * 2 ^ lastDigit x := by
    unfold double at hd
    split_ifs at hd
    exact (Dbl.fin.inj hd).symm
  generalize roundEven (x / 2 ^ lastDigit x) = m at he
  refine ⟨?_, ?_, he⟩
  · rw [he] at hx
    exact_mod_cast (pos_iff_pos_of_mul_pos hx).2 hp
  · have a := Int.lt_zpow_succ_log_self (b := 2) (by norm_num) x
    push_cast at a
    rw [show Int.log 2 x + 1 = 53 + lastDigit x by rw [hl]; ring, zpow_add₀ (by norm_num)] at a
    rw [he] at a
    have b : (m : ℚ) < 2 ^ (53 : ℤ) := lt_of_mul_lt_mul_right (by rw [← he]; rw [← he] at a; exact a) hp.le
    have c : (2 : ℚ) ^ (53 : ℤ) = ((2 ^ 53 : ℤ) : ℚ) := by norm_num
    rw [c] at b
    exact_mod_cast b

theorem two_zpow_lt {e : ℤ} (h : e < 1024) : (2 : ℚ) ^ e < 2 ^ 1024 := by
  have : (2 : ℚ) ^ e < 2 ^ (1024 : ℤ) := zpow_lt_zpow_right₀ (by norm_num) h
  rwa [show (2 : ℚ) ^ (1024 : ℤ) = 2 ^ 1024 from zpow_natCast 2 1024] at this

/-- C128: if minimum and maximum of the range are the same positive number, the range is widened and the number is in its middle: computed with
doubles, the distance from the lower end in units of bins is exactly half of the number of bins. -/
theorem degenerate_middle (x : ℚ) (hd : double x = .fin x) (h1 : 2 ^ (-941 : ℤ) ≤ x) (h2 : x < 2 ^ 1023) (bins : ℕ) (hb : bins ≤ 2 ^ 31) :
    ∃ dx, invSpacingF double (fixRangeF double spacingDouble (.fin x, .fin x)) bins = .ok dx ∧
      computed double (fixRangeF double spacingDouble (.fin x, .fin x)).1 dx (.fin x) = .fin (bins / 2) := by
  have hx : 0 < x := lt_of_lt_of_le (two_zpow_pos _) h1
  obtain ⟨hl, m, hm0, hm, hxm⟩ := double_digits hd (le_trans (zpow_le_zpow_right₀ (by norm_num) (by norm_num)) h1)
  have hlo : -941 ≤ Int.log 2 x := (Int.zpow_le_iff_le_log (b := 2) (by norm_num) hx).1 (by exact_mod_cast h1)
  have hhi : Int.log 2 x < 1023 := by
    refine (Int.lt_zpow_iff_log_lt (b := 2) (by norm_num) hx).1 ?_
    rw [← zpow_natCast] at h2
    exact_mod_cast h2
  have hs0 : spacingDouble (.fin x) = if 2 ^ 1024 ≤ |x| + 2 ^ lastDigit x then .inf false else .fin (2 ^ lastDigit x) := by
    simp only [spacingDouble, if_neg hx.ne', if_neg hx.not_gt, decide_eq_false hx.not_gt]
  generalize lastDigit x = e at hl hxm hs0
  have hp := two_zpow_pos e
  have hp1 : (2 : ℚ) ^ e < 2 ^ 1023 := by
    have : (2 : ℚ) ^ e < 2 ^ (1023 : ℤ) := zpow_lt_zpow_right₀ (by norm_num) (by omega)
    rwa [show (2 : ℚ) ^ (1023 : ℤ) = 2 ^ 1023 from zpow_natCast 2 1023] at this
  have htop : x + 2 ^ e < 2 ^ 1024 := by
    rw [show (2 : ℚ) ^ 1024 = 2 ^ 1023 + 2 ^ 1023 by rw [pow_succ]; ring]
    exact add_lt_add h2 hp1
  have hs : spacingDouble (.fin x) = .fin (2 ^ e) := by
    rw [hs0, abs_of_pos hx, if_neg (not_le.2 htop)]
  have d0 : double 0 = .fin 0 := double_exact 0 0 (by norm_num) (by norm_num) (by norm_num) (by rw [abs_zero]; positivity)
  have hup : double (x + 2 ^ e) = .fin (x + 2 ^ e) := by
    refine double_exact (m + 1) e ?_ (by omega) ?_ ?_
    · rw [abs_of_pos (by omega)]
      omega
    · rw [hxm]
      push_cast
      ring
    · rwa [abs_of_pos (by linarith)]
  have hdown : double (x + -2 ^ e) = .fin (x - 2 ^ e) := by
    rw [← sub_eq_add_neg]
    have hge : 2 ^ e ≤ x := by
      rw [hxm]
      refine le_mul_of_one_le_left hp.le ?_
      exact_mod_cast hm0
    refine double_exact (m - 1) e ?_ (by omega) ?_ ?_
    · rw [abs_of_nonneg (by omega)]
      omega
    · rw [hxm]
      push_cast
      ring
    · rw [abs_of_nonneg (by linarith)]
      refine lt_trans ?_ htop
      linarith
  have hr : fixRangeF double spacingDouble (.fin x, .fin x) = (.fin (x - 2 ^ e), .fin (x + 2 ^ e)) := by
    unfold fixRangeF
    simp only [hs, Dbl.sub, Dbl.neg, Dbl.add, add_neg_cancel, d0, Dbl.abs, Dbl.lt, abs_zero, hp, decide_true, if_true, hup, hdown]
  rw [hr]
  have hw : double (x + 2 ^ e + -(x - 2 ^ e)) = .fin (2 ^ (e + 1)) := by
    have e1 : x + 2 ^ e + -(x - 2 ^ e) = 2 ^ (e + 1) := by
      rw [zpow_add₀ (by norm_num)]
      ring
    rw [e1]
    refine double_exact 1 (e + 1) (by norm_num) (by omega) (by norm_num) ?_
    rw [abs_of_pos (two_zpow_pos _)]
    exact two_zpow_lt (by omega)
  have hi : double (1 / 2 ^ (e + 1)) = .fin (2 ^ (-(e + 1))) := by
    have e1 : (1 : ℚ) / 2 ^ (e + 1) = 2 ^ (-(e + 1)) := by rw [zpow_neg, one_div]
    rw [e1]
    refine double_exact 1 (-(e + 1)) (by norm_num) (by omega) (by norm_num) ?_
    rw [abs_of_pos (two_zpow_pos _)]
    exact two_zpow_lt (by omega)
  have hbq : (bins : ℚ) ≤ 2 ^ 31 := by exact_mod_cast hb
  have hk : double (2 ^ (-(e + 1)) * (bins : ℚ)) = .fin (2 ^ (-(e + 1)) * bins) := by
    refine double_exact (bins : ℤ) (-(e + 1)) ?_ (by omega) ?_ ?_
    · rw [abs_of_nonneg (by omega)]
      omega
    · push_cast
      ring
    · rw [abs_of_nonneg (mul_nonneg (two_zpow_pos _).le (Nat.cast_nonneg _))]
      refine lt_of_le_of_lt (mul_le_mul_of_nonneg_left hbq (two_zpow_pos _).le) ?_
      rw [show (2 : ℚ) ^ (-(e + 1)) * 2 ^ 31 = 2 ^ (30 - e) by
        rw [show (2 : ℚ) ^ 31 = 2 ^ (31 : ℤ) by norm_num, ← zpow_add₀ (by norm_num)]
        congr 1
        ring]
      exact two_zpow_lt (by omega)
  have hq : double (x + -(x - 2 ^ e)) = .fin (2 ^ e) := by
    rw [show x + -(x - 2 ^ e) = (2 : ℚ) ^ e by ring]
    refine double_exact 1 e (by norm_num) (by omega) (by norm_num) ?_
    rw [abs_of_pos hp]
    exact two_zpow_lt (by omega)
  have hf : double (2 ^ e * (2 ^ (-(e + 1)) * bins)) = .fin ((bins : ℚ) / 2) := by
    have e1 : (2 : ℚ) ^ e * (2 ^ (-(e + 1)) * bins) = (bins : ℤ) / 2 := by
      rw [← mul_assoc, ← zpow_add₀ (by norm_num), show e + -(e + 1) = -1 by ring, zpow_neg_one]
      push_cast
      ring
    rw [e1, double_rounding.exact bins (by rw [abs_of_nonneg (by omega)]; omega)]
    push_cast
    rfl
  refine ⟨.fin (2 ^ (-(e + 1)) * bins), ?_, ?_⟩
  · simp only [invSpacingF, Dbl.sub, Dbl.neg, Dbl.add, hw, Dbl.div, if_neg (two_zpow_pos (e + 1)).ne', hi, bind, Except.bind, Dbl.mul, hk]
    rfl
  · simp only [computed, Dbl.sub, Dbl.neg, Dbl.add, hq, Dbl.mul, hf]

/-- C128: all particles at the same positive position (above 2^(-941), about 10^(-283)) are counted, in the bin in the middle. Partial: negative
numbers and zero, see below. -/
theorem histogram_degenerate_partial (x : ℚ) (hd : double x = .fin x) (h1 : 2 ^ (-941 : ℤ) ≤ x) (h2 : x < 2 ^ 1023) (bins n : ℕ)
    (hb : bins ≤ 2 ^ 31) (hn : n ≤ 2 ^ 31) :
    histogramF double spacingDouble .ngp (List.replicate n (.fin x)) (.fin x, .fin x) bins none =
      .ok ((List.range bins).map fun i => .fin (if i = bins / 2 then n else 0)) := by
  obtain ⟨dx, hdx, hc⟩ := degenerate_middle x hd h1 h2 bins hb
  rw [histogram_counts double double_rounding spacingDouble _ _ bins hb (by simpa using hn) dx hdx]
  refine congrArg Except.ok (List.map_congr_left fun i hi => ?_)
  rw [List.countP_replicate, hc]
  have hi := List.mem_range.1 hi
  have key : inBin i (Dbl.fin ((bins : ℚ) / 2)) = decide (i = bins / 2) := by
    simp only [inBin, Dbl.lt, Dbl.le]
    have hb0 : (0 : ℚ) < bins / 2 := by
      have : (0 : ℚ) < bins := by exact_mod_cast (by omega : 0 < bins)
      linarith
    rw [Bool.eq_iff_iff]
    simp only [Bool.and_eq_true, decide_eq_true_eq]
    rw [le_div_iff₀ (by norm_num), div_lt_iff₀ (by norm_num)]
    have a : ((i : ℚ) * 2 ≤ bins) ↔ i * 2 ≤ bins := by exact_mod_cast Iff.rfl
    have b : ((bins : ℚ) < (i + 1) * 2) ↔ bins < (i + 1) * 2 := by exact_mod_cast Iff.rfl
    rw [a, b]
    constructor
    · rintro ⟨⟨-, h⟩, h'⟩
      omega
    · intro h
      exact ⟨⟨hb0, by omega⟩, by omega⟩
  rw [key]
  by_cases h : i = bins / 2 <;> simp [h]

/-- C128, violated: all particles at the same negative position are a ZeroDivisionError. -/
theorem histogram_degenerate_negative_violated (x : ℚ) (hx : x < 0) (s : Shape) (data : List (Dbl ℚ)) (bins : ℕ)
    (weights : Option (List (Dbl ℚ))) :
    histogramF double spacingDouble s data (.fin x, .fin x) bins weights = .error .zeroDivisionError := by
  have d0 : double 0 = .fin 0 := double_exact 0 0 (by norm_num) (by norm_num) (by norm_num) (by rw [abs_zero]; positivity)
  have hr : fixRangeF double spacingDouble (.fin x, .fin x) = (.fin x, .fin x) := by
    unfold fixRangeF
    rw [if_neg]
    simp only [Dbl.sub, Dbl.neg, Dbl.add, add_neg_cancel, d0, Dbl.abs, abs_zero, spacingDouble, if_neg hx.ne, if_pos hx, decide_eq_true hx]
    split_ifs
    · simp [Dbl.lt]
    · have := two_zpow_pos (lastDigit x)
      simp only [Dbl.lt, decide_eq_true_eq]
      linarith
  unfold histogramF
  simp only [hr, invSpacingF, Dbl.sub, Dbl.neg, Dbl.add, add_neg_cancel, d0, Dbl.div, if_true, bind, Except.bind]

/-- C128, violated: no particle at zero is counted if all of them are there. -/
theorem histogram_degenerate_zero_violated (bins n : ℕ) (hb : bins ≤ 2 ^ 31) (hn : n ≤ 2 ^ 31) :
    histogramF double spacingDouble .ngp (List.replicate n (.fin 0)) (.fin 0, .fin 0) bins none = .ok (List.replicate bins (.fin 0)) := by
  have hr : fixRangeF double spacingDouble (.fin 0, .fin 0) = (.fin (-2 ^ (-1074 : ℤ)), .fin (2 ^ (-1074 : ℤ))) := by decide +kernel
  have hi : Dbl.div double (.fin 1) (Dbl.sub double (.fin (2 ^ (-1074 : ℤ))) (.fin (-2 ^ (-1074 : ℤ)))) = .ok (.inf false) := by decide +kernel
  have hq : Dbl.sub double (.fin 0) (.fin (-2 ^ (-1074 : ℤ))) = .fin (2 ^ (-1074 : ℤ)) := by decide +kernel
  have hdx : invSpacingF double (fixRangeF double spacingDouble (.fin 0, .fin 0)) bins =
      .ok (Dbl.mul double (.inf false) (.fin bins)) := by
    rw [hr]
    simp only [invSpacingF, hi, bind, Except.bind]
    rfl
  rw [histogram_counts double double_rounding spacingDouble _ _ bins hb (by simpa using hn) _ hdx]
  refine congrArg Except.ok (List.eq_replicate_iff.2 ⟨by simp, fun b h => ?_⟩)
  obtain ⟨i, hi, rfl⟩ := List.mem_map.1 h
  have hb0 : ((bins : ℕ) : ℚ) ≠ 0 := by
    have := List.mem_range.1 hi
    exact_mod_cast (by omega : bins ≠ 0)
  have hneg : ¬ ((bins : ℕ) : ℚ) < 0 := not_lt.2 (Nat.cast_nonneg _)
  have hc : computed double (fixRangeF double spacingDouble (.fin 0, .fin 0)).1 (Dbl.mul double (.inf false) (.fin bins)) (.fin 0) =
      .inf false := by
    have hp := two_zpow_pos (-1074)
    rw [hr, computed, hq]
    simp only [Dbl.mul, if_neg hb0, decide_eq_false hneg, if_neg hp.ne', decide_eq_false hp.not_gt]
    rfl
  rw [List.countP_replicate, hc]
  simp [inBin, Dbl.lt]

/-! ### Examples -/

example : ∃ x : ℚ, double x = .fin x ∧ 2 ^ (-941 : ℤ) ≤ x ∧ x < 2 ^ 1023 ∧ double (1 / 10) = .fin x :=
  ⟨tenth, by decide +kernel, by decide +kernel, by decide +kernel, by decide +kernel⟩

example := histogram_degenerate_partial tenth (by decide +kernel) (by decide +kernel) (by decide +kernel) 5 7 (by norm_num) (by norm_num)

example : histogramF double spacingDouble .ngp [.fin 3, .fin 3] (.fin 3, .fin 3) 3 none = .ok [.fin 0, .fin 2, .fin 0] := by decide +kernel

example := nearest_rounded double double_rounding axisSample valid_sample (by decide) (7 / 5)

example := histogram2d_float_safe_partial double double_rounding spacingDouble .triangle [.fin 1, .nan] [.fin 2, .inf true] rfl
  (.fin 0, .fin 3) (.fin 0, .fin 4) 3 4 (by norm_num) (by norm_num) none

/-- Ties go to the even neighbour. -/
example : double (2 ^ 53 + 1) = .fin (2 ^ 53) ∧ double (2 ^ 53 + 3) = .fin (2 ^ 53 + 4) := by decide +kernel
/-- The smallest positive double and a number which underflows. -/
example : double (1 / 2 ^ 1074) = .fin (1 / 2 ^ 1074) ∧ double (1 / 2 ^ 1075) = .fin 0 := by decide +kernel
/-- The largest double and numbers which overflow. -/
example : double (2 ^ 1024 - 2 ^ 971) = .fin (2 ^ 1024 - 2 ^ 971) ∧ double (2 ^ 1024 - 2 ^ 970) = .inf false ∧
    double (-2 ^ 1024) = .inf true := by decide +kernel

end Postpic.Props
