import Mathlib.Data.Int.Log
import Mathlib.Data.Rat.Floor
import Mathlib.Algebra.Order.Round
import Mathlib.Tactic.NormNum
import Mathlib.Tactic.Linarith
import Mathlib.Tactic.Ring
import Mathlib.Tactic.FieldSimp

/-!
# Lemmas: rounding to 53 binary digits
-/

set_option autoImplicit false

namespace Postpic.Spec

/-- The number with 53 binary digits next to `x`. -/
def near53 (x : ℚ) : ℚ := round (x / 2 ^ (Int.log 2 |x| - 52)) * 2 ^ (Int.log 2 |x| - 52)

theorem round_le_of_le {x y : ℚ} (h : x ≤ y) : round x ≤ round y := by
  rw [round_eq, round_eq]
  exact Int.floor_le_floor (by linarith)

theorem pow_pos53 (e : ℤ) : (0 : ℚ) < 2 ^ e := zpow_pos (by norm_num) e

/-- A power of two, split. -/
theorem pow_split (E : ℤ) : (2 : ℚ) ^ E = ((2 ^ 52 : ℤ) : ℚ) * 2 ^ (E - 52) ∧ (2 : ℚ) ^ (E + 1) = ((2 ^ 53 : ℤ) : ℚ) * 2 ^ (E - 52) := by
  have h : ∀ k : ℕ, (2 : ℚ) ^ (E - 52 + k) = 2 ^ k * 2 ^ (E - 52) := by
    intro k
    rw [zpow_add₀ (by norm_num : (2 : ℚ) ≠ 0), zpow_natCast, mul_comm]
  have h1 := h 52
  have h2 := h 53
  rw [show E - 52 + ((52 : ℕ) : ℤ) = E by push_cast; ring] at h1
  rw [show E - 52 + ((53 : ℕ) : ℤ) = E + 1 by push_cast; ring] at h2
  rw [h1, h2]
  constructor <;> norm_num

/-- Numbers with at most 53 digits are not changed. -/
theorem near53_exact (m e : ℤ) (hm : |m| ≤ 2 ^ 53) : near53 ((m : ℚ) * 2 ^ e) = (m : ℚ) * 2 ^ e := by
  by_cases h0 : m = 0
  · subst h0
    simp [near53]
  have hy : (m : ℚ) * 2 ^ e ≠ 0 := mul_ne_zero (by exact_mod_cast h0) (pow_pos53 e).ne'
  have habs : |(m : ℚ) * 2 ^ e| = |(m : ℚ)| * 2 ^ e := by rw [abs_mul, abs_of_pos (pow_pos53 e)]
  unfold near53
  generalize hE : Int.log 2 |(m : ℚ) * 2 ^ e| = E
  suffices h : ∃ k : ℤ, (m : ℚ) * 2 ^ e / 2 ^ (E - 52) = k by
    obtain ⟨k, hk⟩ := h
    rw [hk, round_intCast, ← hk, div_mul_cancel₀ _ (pow_pos53 _).ne']
  rcases lt_or_eq_of_le hm with hlt | heq
  · have h1 : |(m : ℚ) * 2 ^ e| < 2 ^ (e + 53) := by
      rw [habs, zpow_add₀ (by norm_num : (2 : ℚ) ≠ 0), mul_comm]
      refine mul_lt_mul_of_pos_left ?_ (pow_pos53 e)
      have : ((|m| : ℤ) : ℚ) < ((2 ^ 53 : ℤ) : ℚ) := by exact_mod_cast hlt
      rw [Int.cast_abs] at this
      exact_mod_cast this
    have h2 : E < e + 53 := by
      rw [← hE]
      exact (Int.lt_zpow_iff_log_lt (by norm_num) (abs_pos.2 hy)).1 h1
    obtain ⟨d, hd⟩ : ∃ d : ℕ, e - (E - 52) = d := ⟨(e - (E - 52)).toNat, by omega⟩
    refine ⟨m * 2 ^ d, ?_⟩
    rw [mul_div_assoc, ← zpow_sub₀ (by norm_num : (2 : ℚ) ≠ 0), hd, zpow_natCast]
    push_cast
    ring
  · have h1 : |(m : ℚ) * 2 ^ e| = 2 ^ (e + 53) := by
      rw [habs, zpow_add₀ (by norm_num : (2 : ℚ) ≠ 0), mul_comm]
      congr 1
      have : ((|m| : ℤ) : ℚ) = ((2 ^ 53 : ℤ) : ℚ) := by exact_mod_cast heq
      rw [Int.cast_abs] at this
      exact_mod_cast this
    have h2 : E = e + 53 := by
      rw [← hE, h1]
      exact_mod_cast Int.log_zpow (R := ℚ) (b := 2) (by norm_num) (e + 53)
    have h3 : ∃ s : ℤ, m = s * 2 ^ 53 := by
      rcases abs_eq (by norm_num : (0 : ℤ) ≤ 2 ^ 53) |>.1 heq with h | h
      · exact ⟨1, by omega⟩
      · exact ⟨-1, by omega⟩
    obtain ⟨s, hs⟩ := h3
    refine ⟨s * 2 ^ 52, ?_⟩
    rw [mul_div_assoc, ← zpow_sub₀ (by norm_num : (2 : ℚ) ≠ 0), h2, hs, show e - (e + 53 - 52) = -1 by ring]
    push_cast
    norm_num
    ring

/-- Results are multiples of a power of two. -/
theorem near53_form (x : ℚ) : ∃ m e : ℤ, |m| ≤ 2 ^ 53 ∧ near53 x = (m : ℚ) * 2 ^ e := by
  refine ⟨round (x / 2 ^ (Int.log 2 |x| - 52)), Int.log 2 |x| - 52, ?_, rfl⟩
  by_cases hx : x = 0
  · subst hx
    simp
  have h2 := Int.lt_zpow_succ_log_self (b := 2) (by norm_num) |x|
  have h2' : |x| < 2 ^ (Int.log 2 |x| - 52) * 2 ^ 53 := by
    calc |x| < ((2 : ℕ) : ℚ) ^ (Int.log 2 |x| + 1) := h2
      _ = 2 ^ (Int.log 2 |x| - 52) * 2 ^ 53 := by
        have h := (pow_split (Int.log 2 |x|)).2
        rw [Nat.cast_ofNat, h, mul_comm]
        norm_num
  have hp := pow_pos53 (Int.log 2 |x| - 52)
  generalize (2 : ℚ) ^ (Int.log 2 |x| - 52) = t at *
  rw [abs_lt] at h2'
  rw [abs_le]
  constructor
  · have : round ((-(2 ^ 53 : ℤ) : ℤ) : ℚ) ≤ round (x / t) := round_le_of_le (by
      rw [le_div_iff₀ hp]; push_cast; linarith [h2'.1])
    rwa [round_intCast] at this
  · have : round (x / t) ≤ round (((2 ^ 53 : ℤ) : ℤ) : ℚ) := round_le_of_le (by
      rw [div_le_iff₀ hp]; push_cast; linarith [h2'.2])
    rwa [round_intCast] at this

theorem near53_idem (x : ℚ) : near53 (near53 x) = near53 x := by
  obtain ⟨m, e, hm, h⟩ := near53_form x
  rw [h, near53_exact m e hm]

/-- Rounding keeps the sign and the power of two. -/
theorem near53_pos {x : ℚ} (hx : 0 < x) : 2 ^ Int.log 2 x ≤ near53 x ∧ near53 x ≤ 2 ^ (Int.log 2 x + 1) := by
  have h1 : ((2 : ℕ) : ℚ) ^ Int.log 2 x ≤ x := Int.zpow_log_le_self (by norm_num) hx
  have h2 : x < ((2 : ℕ) : ℚ) ^ (Int.log 2 x + 1) := Int.lt_zpow_succ_log_self (by norm_num) x
  unfold near53
  rw [abs_of_pos hx]
  have e1 : (2 : ℚ) ^ Int.log 2 x = ((2 ^ 52 : ℤ) : ℚ) * 2 ^ (Int.log 2 x - 52) := (pow_split _).1
  have e2 : (2 : ℚ) ^ (Int.log 2 x + 1) = ((2 ^ 53 : ℤ) : ℚ) * 2 ^ (Int.log 2 x - 52) := (pow_split _).2
  rw [Nat.cast_ofNat] at h1 h2
  rw [e1] at h1
  rw [e2] at h2
  rw [e1, e2]
  have hp := pow_pos53 (Int.log 2 x - 52)
  generalize (2 : ℚ) ^ (Int.log 2 x - 52) = t at *
  constructor
  · refine mul_le_mul_of_nonneg_right ?_ hp.le
    have : round ((2 ^ 52 : ℤ) : ℚ) ≤ round (x / t) := round_le_of_le (by rw [le_div_iff₀ hp]; exact h1)
    rw [round_intCast] at this
    exact_mod_cast this
  · refine mul_le_mul_of_nonneg_right ?_ hp.le
    have : round (x / t) ≤ round ((2 ^ 53 : ℤ) : ℚ) := round_le_of_le (by rw [div_le_iff₀ hp]; exact h2.le)
    rw [round_intCast] at this
    exact_mod_cast this

theorem near53_neg {x : ℚ} (hx : x < 0) : -2 ^ (Int.log 2 |x| + 1) ≤ near53 x ∧ near53 x ≤ -2 ^ Int.log 2 |x| := by
  have h1 : ((2 : ℕ) : ℚ) ^ Int.log 2 |x| ≤ |x| := Int.zpow_log_le_self (by norm_num) (abs_pos.2 hx.ne)
  have h2 : |x| < ((2 : ℕ) : ℚ) ^ (Int.log 2 |x| + 1) := Int.lt_zpow_succ_log_self (by norm_num) |x|
  have ha : |x| = -x := abs_of_neg hx
  unfold near53
  have e1 : (2 : ℚ) ^ Int.log 2 |x| = ((2 ^ 52 : ℤ) : ℚ) * 2 ^ (Int.log 2 |x| - 52) := (pow_split _).1
  have e2 : (2 : ℚ) ^ (Int.log 2 |x| + 1) = ((2 ^ 53 : ℤ) : ℚ) * 2 ^ (Int.log 2 |x| - 52) := (pow_split _).2
  rw [Nat.cast_ofNat] at h1 h2
  rw [e1] at h1
  rw [e2] at h2
  rw [e1, e2]
  have hp := pow_pos53 (Int.log 2 |x| - 52)
  generalize (2 : ℚ) ^ (Int.log 2 |x| - 52) = t at *
  rw [ha] at h1 h2
  constructor
  · rw [← neg_mul]
    refine mul_le_mul_of_nonneg_right ?_ hp.le
    have : round ((-2 ^ 53 : ℤ) : ℚ) ≤ round (x / t) := round_le_of_le (by rw [le_div_iff₀ hp]; push_cast at h2 ⊢; linarith)
    rw [round_intCast] at this
    exact_mod_cast this
  · rw [← neg_mul]
    refine mul_le_mul_of_nonneg_right ?_ hp.le
    have : round (x / t) ≤ round ((-2 ^ 52 : ℤ) : ℚ) := round_le_of_le (by rw [div_le_iff₀ hp]; push_cast at h1 ⊢; linarith)
    rw [round_intCast] at this
    exact_mod_cast this

/-- Rounding keeps the order. -/
theorem near53_mono {x y : ℚ} (h : x ≤ y) : near53 x ≤ near53 y := by
  have h00 : near53 0 = 0 := by simp [near53]
  have same : Int.log 2 |x| = Int.log 2 |y| → near53 x ≤ near53 y := by
    intro he
    unfold near53
    rw [he]
    have hp := pow_pos53 (Int.log 2 |y| - 52)
    generalize (2 : ℚ) ^ (Int.log 2 |y| - 52) = t at *
    refine mul_le_mul_of_nonneg_right ?_ hp.le
    exact_mod_cast round_le_of_le (div_le_div_of_nonneg_right h hp.le)
  rcases lt_trichotomy x 0 with hx | hx | hx
  · rcases lt_or_ge y 0 with hy | hy
    · have hl : Int.log 2 |y| ≤ Int.log 2 |x| := Int.log_mono_right (abs_pos.2 hy.ne) (by rw [abs_of_neg hx, abs_of_neg hy]; linarith)
      rcases eq_or_lt_of_le hl with he | hlt
      · exact same he.symm
      · have h1 := (near53_neg hx).2
        have h2 := (near53_neg hy).1
        have h3 : (2 : ℚ) ^ (Int.log 2 |y| + 1) ≤ 2 ^ Int.log 2 |x| := zpow_le_zpow_right₀ (by norm_num) (by omega)
        linarith
    · have h1 := (near53_neg hx).2
      have h2 := pow_pos53 (Int.log 2 |x|)
      rcases eq_or_lt_of_le hy with h0 | hy
      · rw [← h0, h00]; linarith
      · have h3 := (near53_pos hy).1
        have h4 := pow_pos53 (Int.log 2 y)
        linarith
  · subst hx
    rw [h00]
    rcases eq_or_lt_of_le h with h0 | hy
    · rw [← h0, h00]
    · have h3 := (near53_pos hy).1
      have h4 := pow_pos53 (Int.log 2 y)
      linarith
  · have hy : 0 < y := by linarith
    have hl : Int.log 2 x ≤ Int.log 2 y := Int.log_mono_right hx h
    rcases eq_or_lt_of_le hl with he | hlt
    · exact same (by rw [abs_of_pos hx, abs_of_pos hy]; exact he)
    · have h1 := (near53_pos hx).2
      have h2 := (near53_pos hy).1
      have h3 : (2 : ℚ) ^ (Int.log 2 x + 1) ≤ 2 ^ Int.log 2 y := zpow_le_zpow_right₀ (by norm_num) (by omega)
      linarith

end Postpic.Spec
