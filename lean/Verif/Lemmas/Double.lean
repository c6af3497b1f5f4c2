import Verif.Spec.Double
import Verif.Spec.StatisticsFloat
import Mathlib.Algebra.Order.Ring.Abs
import Mathlib.Tactic.Positivity
import Mathlib.Tactic.Linarith
import Mathlib.Tactic.FieldSimp
import Mathlib.Tactic.NormNum

/-!
# Lemmas about doubles
-/

set_option autoImplicit false

namespace Postpic.Spec

open Postpic.Histogram

theorem roundEven_int (n : ℤ) : roundEven (n : ℚ) = n := by
  unfold roundEven
  rw [Int.fract_intCast, if_pos (by norm_num), Int.floor_intCast]

theorem roundEven_near (x : ℚ) : |(roundEven x : ℚ) - x| ≤ 1 / 2 := by
  have h1 := Int.floor_add_fract x
  have h2 := Int.fract_nonneg x
  have h3 := Int.fract_lt_one x
  rw [abs_le]
  unfold roundEven
  split_ifs <;> push_cast <;> constructor <;> linarith

theorem floor_le_roundEven (x : ℚ) : ⌊x⌋ ≤ roundEven x ∧ roundEven x ≤ ⌊x⌋ + 1 := by
  unfold roundEven
  split_ifs <;> constructor <;> omega

theorem roundEven_mono {x y : ℚ} (h : x ≤ y) : roundEven x ≤ roundEven y := by
  have hf : ⌊x⌋ ≤ ⌊y⌋ := Int.floor_le_floor h
  obtain ⟨-, h1⟩ := floor_le_roundEven x
  obtain ⟨h2, -⟩ := floor_le_roundEven y
  rcases hf.lt_or_eq with hlt | heq
  · omega
  · have hx := Int.floor_add_fract x
    have hy := Int.floor_add_fract y
    have : (⌊x⌋ : ℚ) = ⌊y⌋ := by rw [heq]
    have hfr : Int.fract x ≤ Int.fract y := by linarith
    unfold roundEven
    rw [heq]
    split_ifs <;> first | omega | (exfalso; linarith)

theorem roundEven_neg (x : ℚ) : roundEven (-x) = -roundEven x := by
  have hx := Int.floor_add_fract x
  have h2 := Int.fract_nonneg x
  have h3 := Int.fract_lt_one x
  by_cases h0 : Int.fract x = 0
  · have : x = (⌊x⌋ : ℚ) := by linarith
    rw [this, show (-((⌊x⌋ : ℤ) : ℚ)) = ((-⌊x⌋ : ℤ) : ℚ) by push_cast; ring, roundEven_int, roundEven_int]
  · have hf : Int.fract (-x) = 1 - Int.fract x := Int.fract_neg h0
    have hfl : ⌊-x⌋ = -⌊x⌋ - 1 := by
      have := Int.floor_add_fract (-x)
      rw [hf] at this
      have h4 : ((⌊-x⌋ : ℤ) : ℚ) = ((-⌊x⌋ - 1 : ℤ) : ℚ) := by push_cast; linarith
      exact_mod_cast h4
    unfold roundEven
    rw [hf, hfl]
    split_ifs <;> first | omega | (exfalso; linarith)

theorem lastDigit_neg (x : ℚ) : lastDigit (-x) = lastDigit x := by unfold lastDigit; rw [abs_neg]

theorem nearDouble_neg (x : ℚ) : nearDouble (-x) = -nearDouble x := by
  unfold nearDouble
  rw [lastDigit_neg, neg_div, roundEven_neg]
  push_cast
  ring

theorem two_zpow_pos (e : ℤ) : (0 : ℚ) < 2 ^ e := zpow_pos (by norm_num) e

/-- Multiples of the last digit are not changed. -/
theorem grid_exact {e E : ℤ} (h : e ≤ E) (m : ℤ) : (roundEven ((m : ℚ) * 2 ^ E / 2 ^ e) : ℚ) * 2 ^ e = m * 2 ^ E := by
  obtain ⟨k, rfl⟩ := Int.le.dest h
  have e1 : (2 : ℚ) ^ (e + k) = 2 ^ e * ((2 ^ k : ℤ) : ℚ) := by
    rw [zpow_add₀ (by norm_num), zpow_natCast]
    push_cast
    rfl
  have h0 := (two_zpow_pos e).ne'
  have e2 : (m : ℚ) * 2 ^ (e + k : ℤ) / 2 ^ e = ((m * 2 ^ k : ℤ) : ℚ) := by
    rw [e1]
    push_cast
    field_simp
  rw [e2, roundEven_int, e1]
  push_cast
  ring

theorem grid_mono (e : ℤ) {x y : ℚ} (h : x ≤ y) : (roundEven (x / 2 ^ e) : ℚ) * 2 ^ e ≤ roundEven (y / 2 ^ e) * 2 ^ e := by
  refine mul_le_mul_of_nonneg_right ?_ (two_zpow_pos e).le
  exact_mod_cast roundEven_mono (div_le_div_of_nonneg_right h (two_zpow_pos e).le)

theorem nearDouble_nonneg {x : ℚ} (h : 0 ≤ x) : 0 ≤ nearDouble x := by
  have := grid_mono (lastDigit x) h
  rw [zero_div] at this
  have e : roundEven 0 = 0 := roundEven_int 0
  rw [e] at this
  simpa [nearDouble] using this

theorem nearDouble_mono_nonneg {x y : ℚ} (hx : 0 ≤ x) (h : x ≤ y) : nearDouble x ≤ nearDouble y := by
  rcases hx.eq_or_lt with rfl | hx
  · have e : nearDouble 0 = 0 := by
      unfold nearDouble
      rw [zero_div, show roundEven 0 = 0 from roundEven_int 0]
      simp
    rw [e]
    exact nearDouble_nonneg h
  have hy : 0 < y := lt_of_lt_of_le hx h
  have hlog : Int.log 2 x ≤ Int.log 2 y := Int.log_mono_right hx h
  have ax : |x| = x := abs_of_pos hx
  have ay : |y| = y := abs_of_pos hy
  have hd : lastDigit x ≤ lastDigit y := by unfold lastDigit; rw [ax, ay]; omega
  rcases hd.eq_or_lt with heq | hlt
  · unfold nearDouble
    rw [heq]
    exact grid_mono _ h
  -- the last digits differ: a power of two lies between
  have hyd : lastDigit y = Int.log 2 y - 52 := by unfold lastDigit at *; rw [ax, ay] at *; omega
  have hlt' : Int.log 2 x < Int.log 2 y := by
    unfold lastDigit at hlt
    rw [ax, ay] at hlt
    omega
  have h1 : x ≤ 2 ^ Int.log 2 y := by
    have a := Int.lt_zpow_succ_log_self (b := 2) (by norm_num) x
    push_cast at a
    exact a.le.trans (zpow_le_zpow_right₀ (by norm_num) (by omega))
  have h2 : (2 : ℚ) ^ Int.log 2 y ≤ y := by
    have := Int.zpow_log_le_self (b := 2) (by norm_num) hy
    push_cast at this
    exact this
  have g1 := grid_mono (lastDigit x) h1
  have g2 := grid_mono (lastDigit y) h2
  have e1 := grid_exact (e := lastDigit x) (E := Int.log 2 y) (by omega) 1
  have e2 := grid_exact (e := lastDigit y) (E := Int.log 2 y) (by omega) 1
  rw [Int.cast_one, one_mul] at e1 e2
  rw [e1] at g1
  rw [e2] at g2
  exact g1.trans g2

theorem nearDouble_mono {x y : ℚ} (h : x ≤ y) : nearDouble x ≤ nearDouble y := by
  rcases le_total 0 x with hx | hx
  · exact nearDouble_mono_nonneg hx h
  · rcases le_total 0 y with hy | hy
    · have h1 := nearDouble_nonneg hy
      have h2 := nearDouble_nonneg (show 0 ≤ -x by linarith)
      rw [nearDouble_neg] at h2
      linarith
    · have := nearDouble_mono_nonneg (show 0 ≤ -y by linarith) (show -y ≤ -x by linarith)
      rw [nearDouble_neg, nearDouble_neg] at this
      linarith

/-- Whole multiples of powers of two with 53 digits are doubles. -/
theorem nearDouble_exact (m e : ℤ) (hm : |m| ≤ 2 ^ 53) (he : -1074 ≤ e) : nearDouble ((m : ℚ) * 2 ^ e) = m * 2 ^ e := by
  by_cases h0 : m = 0
  · subst h0
    unfold nearDouble
    rw [Int.cast_zero, zero_mul, zero_div, show roundEven 0 = 0 from roundEven_int 0]
    simp
  unfold nearDouble
  generalize hd : lastDigit ((m : ℚ) * 2 ^ e) = d
  by_cases hle : d ≤ e
  · exact grid_exact hle m
  · -- only `|m| = 2^53`
    have hp := two_zpow_pos e
    have habs : |(m : ℚ) * 2 ^ e| = |(m : ℚ)| * 2 ^ e := by rw [abs_mul, abs_of_pos hp]
    have hpos : 0 < |(m : ℚ) * 2 ^ e| := abs_pos.2 (mul_ne_zero (by exact_mod_cast h0) hp.ne')
    have hm' : |(m : ℚ)| ≤ 2 ^ 53 := by exact_mod_cast hm
    have hlog : Int.log 2 |(m : ℚ) * 2 ^ e| = d + 52 := by
      unfold lastDigit at hd
      omega
    have h1 := Int.zpow_log_le_self (b := 2) (by norm_num) hpos
    rw [hlog, habs] at h1
    push_cast at h1
    have h2 : (2 : ℚ) ^ (e + 1 + 52) ≤ 2 ^ (d + 52) := zpow_le_zpow_right₀ (by norm_num) (by omega)
    have h3 : (2 : ℚ) ^ (e + 1 + 52) = 2 ^ 53 * 2 ^ e := by
      rw [show e + 1 + 52 = e + 53 by ring, zpow_add₀ (by norm_num), mul_comm]
      norm_num
    have h4 : |(m : ℚ)| = 2 ^ 53 := by
      refine le_antisymm hm' ?_
      have : (2 : ℚ) ^ 53 * 2 ^ e ≤ |(m : ℚ)| * 2 ^ e := by linarith
      exact le_of_mul_le_mul_right this hp
    have h5 : d = e + 1 := by
      have : (2 : ℚ) ^ (d + 52) ≤ 2 ^ (e + 1 + 52) := by rw [h3, ← h4]; exact h1
      have := (zpow_le_zpow_iff_right₀ (by norm_num : (1 : ℚ) < 2)).1 this
      omega
    have h6 : m = 2 ^ 53 ∨ m = -2 ^ 53 := by
      have : |m| = 2 ^ 53 := by exact_mod_cast h4
      rcases abs_cases m with ⟨h, _⟩ | ⟨h, _⟩ <;> omega
    have key : ∀ s : ℤ, m = s * 2 ^ 53 → (roundEven ((m : ℚ) * 2 ^ e / 2 ^ d) : ℚ) * 2 ^ d = m * 2 ^ e := by
      intro s hs
      have e1 : (m : ℚ) * 2 ^ e = ((s * 2 ^ 52 : ℤ) : ℚ) * 2 ^ d := by
        rw [hs, h5, zpow_add₀ (by norm_num)]
        push_cast
        ring
      rw [e1]
      exact grid_exact le_rfl _
    rcases h6 with h6 | h6
    · exact key 1 (by omega)
    · exact key (-1) (by omega)

theorem nearDouble_form (x : ℚ) : ∃ m e : ℤ, |m| ≤ 2 ^ 53 ∧ -1074 ≤ e ∧ nearDouble x = m * 2 ^ e := by
  refine ⟨roundEven (x / 2 ^ lastDigit x), lastDigit x, ?_, le_max_right _ _, rfl⟩
  have hp := two_zpow_pos (lastDigit x)
  have h1 : |x| ≤ 2 ^ 53 * 2 ^ lastDigit x := by
    by_cases hx : x = 0
    · subst hx
      rw [abs_zero]
      positivity
    · have a := Int.lt_zpow_succ_log_self (b := 2) (by norm_num) |x|
      push_cast at a
      refine a.le.trans ?_
      rw [show (2 : ℚ) ^ 53 = 2 ^ (53 : ℤ) by norm_num, ← zpow_add₀ (by norm_num)]
      refine zpow_le_zpow_right₀ (by norm_num) ?_
      unfold lastDigit
      omega
  have h2 : |x / 2 ^ lastDigit x| ≤ 2 ^ 53 := by
    rw [abs_div, abs_of_pos hp, div_le_iff₀ hp]
    exact h1
  rw [abs_le] at h2 ⊢
  have e1 : (2 : ℚ) ^ 53 = ((2 ^ 53 : ℤ) : ℚ) := by norm_num
  have e2 : -(2 : ℚ) ^ 53 = ((-2 ^ 53 : ℤ) : ℚ) := by norm_num
  rw [e2, e1] at h2
  constructor
  · have := roundEven_mono h2.1
    rwa [roundEven_int] at this
  · have := roundEven_mono h2.2
    rwa [roundEven_int] at this

theorem nearDouble_idem (x : ℚ) : nearDouble (nearDouble x) = nearDouble x := by
  obtain ⟨m, e, h1, h2, h3⟩ := nearDouble_form x
  rw [h3, nearDouble_exact m e h1 h2]

/-- The error. -/
theorem nearDouble_error (x : ℚ) : |nearDouble x - x| ≤ max (1 / 2 ^ 53 * |x|) (1 / 2 ^ 1075) := by
  by_cases hx : x = 0
  · subst hx
    have e : nearDouble 0 = 0 := by
      unfold nearDouble
      rw [zero_div, show roundEven 0 = 0 from roundEven_int 0]
      simp
    rw [e, sub_zero, abs_zero]
    exact le_max_of_le_right (by positivity)
  have hp := two_zpow_pos (lastDigit x)
  have h1 := roundEven_near (x / 2 ^ lastDigit x)
  have h2 : nearDouble x - x = (roundEven (x / 2 ^ lastDigit x) - x / 2 ^ lastDigit x) * 2 ^ lastDigit x := by
    unfold nearDouble
    field_simp
  rw [h2, abs_mul, abs_of_pos hp]
  refine (mul_le_mul_of_nonneg_right h1 hp.le).trans ?_
  by_cases hc : -1074 ≤ Int.log 2 |x| - 52
  · refine le_trans ?_ (le_max_left _ _)
    rw [show lastDigit x = Int.log 2 |x| - 52 from max_eq_left hc]
    have := Int.zpow_log_le_self (b := 2) (by norm_num) (abs_pos.2 hx)
    push_cast at this
    rw [zpow_sub₀ (by norm_num)]
    have e : (1 : ℚ) / 2 * (2 ^ Int.log 2 |x| / 2 ^ (52 : ℤ)) = 1 / 2 ^ 53 * 2 ^ Int.log 2 |x| := by
      norm_num
      ring
    rw [e]
    exact mul_le_mul_of_nonneg_left this (by positivity)
  · refine le_trans (le_of_eq ?_) (le_max_right _ _)
    rw [show lastDigit x = -1074 from max_eq_right (by omega), zpow_neg]
    have : (2 : ℚ) ^ (1074 : ℤ) = 2 ^ 1074 := by rw [← zpow_natCast]; rfl
    rw [this, show (2 : ℚ) ^ 1075 = 2 * 2 ^ 1074 by rw [← pow_succ']]
    rw [one_div, one_div, mul_inv]

end Postpic.Spec
