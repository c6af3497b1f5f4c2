import Mathlib.Algebra.Order.Ring.Abs
import Mathlib.Algebra.Order.Field.Basic
import Mathlib.Tactic.Positivity
import Mathlib.Tactic.FieldSimp
import Mathlib.Tactic.Linarith
import Verif.Spec.ScalarError

/-!
# Lemmas about relative errors
-/

set_option autoImplicit false
set_option linter.unusedSectionVars false

namespace Postpic.Spec

variable {K : Type} [Field K] [LinearOrder K] [IsStrictOrderedRing K] {u : K}

theorem within_mono (hu0 : 0 ≤ u) (hu1 : u < 1) {k l : ℕ} (h : k ≤ l) {x y : K} (hx : Within u k x y) : Within u l x y := by
  obtain ⟨t, h1, h2, h3⟩ := hx
  have hw : (1 - u) ^ l ≤ (1 - u) ^ k := pow_le_pow_of_le_one (by linarith) (by linarith) h
  have ht : 0 < t := lt_of_lt_of_le (pow_pos (by linarith) k) h1
  refine ⟨t, le_trans hw h1, le_trans (mul_le_mul_of_nonneg_left hw ht.le) h2, h3⟩

theorem within_refl (x : K) : Within u 0 x x := ⟨1, by simp, by simp, by simp⟩

/-- One more rounding. -/
theorem within_round (hu0 : 0 ≤ u) (hu1 : u < 1) {k : ℕ} {x y z : K} (h : Within u k x y) (hz : |z - y| ≤ u * |y|) :
    Within u (k + 1) x z := by
  by_cases hy : y = 0
  · subst hy
    rw [abs_zero, mul_zero, sub_zero] at hz
    have : z = 0 := abs_eq_zero.1 (le_antisymm hz (abs_nonneg _))
    subst this
    exact within_mono hu0 hu1 (Nat.le_succ k) h
  · obtain ⟨t, h1, h2, h3⟩ := h
    have hw : 0 < (1 - u) ^ k := pow_pos (by linarith) k
    have ht : 0 < t := lt_of_lt_of_le hw h1
    have hs : |z / y - 1| ≤ u := by
      have : z / y - 1 = (z - y) / y := by field_simp
      rw [this, abs_div, div_le_iff₀ (abs_pos.2 hy)]
      exact hz
    rw [abs_le] at hs
    have hs1 : 1 - u ≤ z / y := by linarith [hs.1]
    have hs2 : z / y * (1 - u) ≤ 1 := by nlinarith [hs.2, hs1]
    refine ⟨t * (z / y), ?_, ?_, ?_⟩
    · rw [pow_succ]
      exact mul_le_mul h1 hs1 (by linarith) ht.le
    · rw [pow_succ]
      calc t * (z / y) * ((1 - u) ^ k * (1 - u)) = (t * (1 - u) ^ k) * (z / y * (1 - u)) := by ring
        _ ≤ 1 * 1 := mul_le_mul h2 hs2 (mul_nonneg (by linarith) (by linarith)) (by norm_num)
        _ = 1 := by norm_num
    · rw [← mul_assoc, ← h3, mul_div_cancel₀ _ hy]

theorem within_mul (hu1 : u < 1) {k l : ℕ} {x y x' y' : K} (h : Within u k x y) (h' : Within u l x' y') :
    Within u (k + l) (x * x') (y * y') := by
  obtain ⟨t, h1, h2, h3⟩ := h
  obtain ⟨s, g1, g2, g3⟩ := h'
  have hw : 0 < (1 - u) ^ k := pow_pos (by linarith) k
  have hw' : 0 < (1 - u) ^ l := pow_pos (by linarith) l
  refine ⟨t * s, ?_, ?_, by rw [h3, g3]; ring⟩
  · rw [pow_add]
    exact mul_le_mul h1 g1 hw'.le (le_trans hw.le h1)
  · rw [pow_add]
    calc t * s * ((1 - u) ^ k * (1 - u) ^ l) = (t * (1 - u) ^ k) * (s * (1 - u) ^ l) := by ring
      _ ≤ 1 * 1 := mul_le_mul h2 g2 (mul_nonneg (le_trans hw'.le g1) hw'.le) (by norm_num)
      _ = 1 := by norm_num

theorem within_inv (hu1 : u < 1) {l : ℕ} {x y : K} (h : Within u l x y) : Within u l x⁻¹ y⁻¹ := by
  obtain ⟨s, g1, g2, g3⟩ := h
  have hw : 0 < (1 - u) ^ l := pow_pos (by linarith) l
  have hs : 0 < s := lt_of_lt_of_le hw g1
  refine ⟨s⁻¹, ?_, ?_, by rw [g3, mul_inv]⟩
  · rw [← one_div, le_div_iff₀ hs]
    linarith
  · rw [inv_mul_le_iff₀ hs]
    linarith

theorem within_add {k : ℕ} {x y x' y' : K} (hx : 0 ≤ x) (hx' : 0 ≤ x') (hu0 : 0 ≤ u) (hu1 : u < 1)
    (h : Within u k x y) (h' : Within u k x' y') : Within u k (x + x') (y + y') := by
  by_cases h0 : x + x' = 0
  · have e1 : x = 0 := by linarith
    have e2 : x' = 0 := by linarith
    obtain ⟨t, -, -, h3⟩ := h
    obtain ⟨s, -, -, g3⟩ := h'
    rw [h3, g3, e1, e2, zero_mul, zero_mul, add_zero]
    exact within_mono hu0 hu1 (Nat.zero_le k) (within_refl 0)
  · have hpos : 0 < x + x' := lt_of_le_of_ne (by linarith) (Ne.symm h0)
    obtain ⟨t, h1, h2, h3⟩ := h
    obtain ⟨s, g1, g2, g3⟩ := h'
    refine ⟨(x * t + x' * s) / (x + x'), ?_, ?_, ?_⟩
    · rw [le_div_iff₀ hpos]
      have a := mul_le_mul_of_nonneg_left h1 hx
      have b := mul_le_mul_of_nonneg_left g1 hx'
      linarith
    · rw [div_mul_eq_mul_div, div_le_one hpos]
      have a := mul_le_mul_of_nonneg_left h2 hx
      have b := mul_le_mul_of_nonneg_left g2 hx'
      linarith
    · rw [h3, g3, mul_div_cancel₀ _ h0]

theorem within_neg {k : ℕ} {x y : K} (h : Within u k x y) : Within u k (-x) (-y) := by
  obtain ⟨t, h1, h2, h3⟩ := h
  exact ⟨t, h1, h2, by rw [h3]; ring⟩

/-- The computed number has the sign of the exact one. -/
theorem within_pos (hu1 : u < 1) {k : ℕ} {x y : K} (hx : 0 < x) (h : Within u k x y) : 0 < y := by
  obtain ⟨t, h1, -, h3⟩ := h
  rw [h3]
  exact mul_pos hx (lt_of_lt_of_le (pow_pos (by linarith) k) h1)

theorem within_nonneg (hu1 : u < 1) {k : ℕ} {x y : K} (hx : 0 ≤ x) (h : Within u k x y) : 0 ≤ y := by
  obtain ⟨t, h1, -, h3⟩ := h
  rw [h3]
  exact mul_nonneg hx (le_trans (pow_pos (by linarith) k).le h1)

/-- The relative error. -/
theorem within_error (hu0 : 0 ≤ u) {k : ℕ} (hk : k * u ≤ 1 / 2) {x y : K} (h : Within u k x y) : |y - x| ≤ 2 * k * u * |x| := by
  obtain ⟨t, h1, h2, rfl⟩ := h
  by_cases hk0 : k = 0
  · subst hk0
    simp only [pow_zero, mul_one] at h1 h2
    have : t = 1 := le_antisymm h2 h1
    simp [this]
  have hk1 : (1 : K) ≤ k := by exact_mod_cast Nat.one_le_iff_ne_zero.2 hk0
  have hu2 : u ≤ 1 / 2 := by nlinarith
  have hb : 1 - k * u ≤ (1 - u) ^ k := by
    have := one_add_mul_le_pow (show (-2 : K) ≤ -u by linarith) k
    rw [← sub_eq_add_neg] at this
    linarith
  have hku : 0 ≤ k * u := mul_nonneg (by linarith) hu0
  have ht : t ≤ 1 + 2 * (k * u) := by
    have ht0 : 0 ≤ t := le_trans (pow_nonneg (by linarith) k) h1
    have h3 : t * (1 - k * u) ≤ 1 := le_trans (mul_le_mul_of_nonneg_left hb ht0) h2
    nlinarith
  have e : x * t - x = (t - 1) * x := by ring
  rw [e, abs_mul]
  refine mul_le_mul_of_nonneg_right ?_ (abs_nonneg x)
  rw [abs_le]
  constructor <;> linarith

end Postpic.Spec
