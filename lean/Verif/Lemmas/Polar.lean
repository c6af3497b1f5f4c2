import Mathlib.Analysis.SpecialFunctions.Complex.Arg
import Mathlib.Tactic.FieldSimp
import Mathlib.Tactic.Linarith
import Mathlib.Tactic.Ring
import Mathlib.Tactic.Positivity
import Verif.Model.Polar

/-!
# Lemmas on polar coordinates
-/

set_option autoImplicit false

namespace Postpic.Polar

open Real

theorem cos_arctan_pos (x y : ℝ) (h : 0 < x) :
    sqrt (x ^ 2 + y ^ 2) * cos (arctan (y / x)) = x := by
  rw [Real.cos_arctan]
  have e : 1 + (y / x) ^ 2 = (x ^ 2 + y ^ 2) / x ^ 2 := by field_simp
  have hp : 0 < x ^ 2 + y ^ 2 := by positivity
  rw [e, Real.sqrt_div hp.le, Real.sqrt_sq h.le]
  have := Real.sqrt_pos.2 hp
  field_simp

theorem sin_arctan_pos (x y : ℝ) (h : 0 < x) :
    sqrt (x ^ 2 + y ^ 2) * sin (arctan (y / x)) = y := by
  rw [Real.sin_arctan]
  have e : 1 + (y / x) ^ 2 = (x ^ 2 + y ^ 2) / x ^ 2 := by field_simp
  have hp : 0 < x ^ 2 + y ^ 2 := by positivity
  rw [e, Real.sqrt_div hp.le, Real.sqrt_sq h.le]
  have := Real.sqrt_pos.2 hp
  field_simp

theorem neg_div_neg' (x y : ℝ) : y / x = (-y) / (-x) := by rw [neg_div_neg_eq]

theorem cos_arctan_neg (x y : ℝ) (h : x < 0) :
    sqrt (x ^ 2 + y ^ 2) * cos (arctan (y / x)) = -x := by
  have := cos_arctan_pos (-x) (-y) (by linarith)
  rwa [neg_sq, neg_sq, neg_div_neg_eq] at this

theorem sin_arctan_neg (x y : ℝ) (h : x < 0) :
    sqrt (x ^ 2 + y ^ 2) * sin (arctan (y / x)) = -y := by
  have := sin_arctan_pos (-x) (-y) (by linarith)
  rwa [neg_sq, neg_sq, neg_div_neg_eq] at this

theorem radius_cos (x y : ℝ) : sqrt (x ^ 2 + y ^ 2) * cos (arctan2 y x) = x := by
  unfold arctan2
  split_ifs with h1 h2 h3 h4 h5
  · exact cos_arctan_pos x y h1
  · rw [Real.cos_add_pi, mul_neg, cos_arctan_neg x y h2, neg_neg]
  · rw [Real.cos_sub_pi, mul_neg, cos_arctan_neg x y h2, neg_neg]
  · rw [Real.cos_pi_div_two, mul_zero]; linarith
  · rw [Real.cos_neg, Real.cos_pi_div_two, mul_zero]; linarith
  · have hx : x = 0 := by linarith
    have hy : y = 0 := by linarith
    subst hx hy
    simp

theorem radius_sin (x y : ℝ) : sqrt (x ^ 2 + y ^ 2) * sin (arctan2 y x) = y := by
  unfold arctan2
  split_ifs with h1 h2 h3 h4 h5
  · exact sin_arctan_pos x y h1
  · rw [Real.sin_add_pi, mul_neg, sin_arctan_neg x y h2, neg_neg]
  · rw [Real.sin_sub_pi, mul_neg, sin_arctan_neg x y h2, neg_neg]
  · have hx : x = 0 := by linarith
    subst hx
    rw [Real.sin_pi_div_two, mul_one, zero_pow two_ne_zero, zero_add, Real.sqrt_sq h4.le]
  · have hx : x = 0 := by linarith
    subst hx
    rw [Real.sin_neg, Real.sin_pi_div_two, zero_pow two_ne_zero, zero_add, Real.sqrt_sq_eq_abs,
      abs_of_neg h5]
    ring
  · have hx : x = 0 := by linarith
    have hy : y = 0 := by linarith
    subst hx hy
    simp

theorem arctan2_range (x y : ℝ) : -π < arctan2 y x ∧ arctan2 y x ≤ π := by
  have hp := Real.pi_pos
  unfold arctan2
  split_ifs with h1 h2 h3 h4 h5
  · have := Real.arctan_lt_pi_div_two (y / x)
    have := Real.neg_pi_div_two_lt_arctan (y / x)
    constructor <;> linarith
  · have h := Real.neg_pi_div_two_lt_arctan (y / x)
    have : y / x ≤ 0 := div_nonpos_of_nonneg_of_nonpos h3 h2.le
    have := Real.arctan_le_zero.2 this
    constructor <;> linarith
  · have h := Real.arctan_lt_pi_div_two (y / x)
    have : 0 < y / x := div_pos_of_neg_of_neg (by linarith) h2
    have := Real.arctan_pos.2 this
    constructor <;> linarith
  · constructor <;> linarith
  · constructor <;> linarith
  · constructor <;> linarith

theorem arctan2_unique (theta r : ℝ) (hr : 0 < r) (h1 : -π < theta) (h2 : theta ≤ π) :
    arctan2 (r * sin theta) (r * cos theta) = theta := by
  set x := r * cos theta with hx
  set y := r * sin theta with hy
  have hs : sqrt (x ^ 2 + y ^ 2) = r := by
    have : x ^ 2 + y ^ 2 = r ^ 2 := by
      rw [hx, hy]
      nlinarith [Real.sin_sq_add_cos_sq theta]
    rw [this, Real.sqrt_sq hr.le]
  have hc := radius_cos x y
  have hsn := radius_sin x y
  rw [hs] at hc hsn
  have e1 := Complex.arg_mul_cos_add_sin_mul_I hr (show theta ∈ Set.Ioc (-π) π from ⟨h1, h2⟩)
  have e2 := Complex.arg_mul_cos_add_sin_mul_I hr
    (show arctan2 y x ∈ Set.Ioc (-π) π from arctan2_range x y)
  rw [← e1, ← e2]
  congr 1
  have c : cos (arctan2 y x) = cos theta := mul_left_cancel₀ hr.ne' (hc.trans hx)
  have s : sin (arctan2 y x) = sin theta := mul_left_cancel₀ hr.ne' (hsn.trans hy)
  simp only [← Complex.ofReal_cos, ← Complex.ofReal_sin, c, s]

end Postpic.Polar
