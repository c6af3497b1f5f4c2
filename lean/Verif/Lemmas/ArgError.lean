import Mathlib.Analysis.Calculus.Deriv.MeanValue
import Mathlib.Analysis.SpecialFunctions.Trigonometric.ArctanDeriv
import Mathlib.Analysis.SpecialFunctions.Trigonometric.Bounds
import Mathlib.Analysis.SpecialFunctions.Complex.Arg
import Verif.Spec.ScalarError

/-!
# The error of angles
-/

set_option autoImplicit false

namespace Postpic.Scalars

open Postpic.Spec

theorem div_le_arctan {a : ℝ} (ha : 0 ≤ a) : a / (1 + a ^ 2) ≤ Real.arctan a := by
  have h0 : 0 ≤ Real.arctan a := Real.arctan_nonneg.2 ha
  have h1 := Real.sin_le h0
  have hp : 0 < 1 + a ^ 2 := by positivity
  rw [Real.sin_arctan] at h1
  refine le_trans ?_ h1
  have hs : Real.sqrt (1 + a ^ 2) ≤ 1 + a ^ 2 := by
    rw [Real.sqrt_le_left hp.le]
    nlinarith [sq_nonneg a]
  exact div_le_div_of_nonneg_left ha (Real.sqrt_pos.2 hp) hs

theorem arctan_mul_le {a t : ℝ} (ha : 0 ≤ a) (ht : 1 ≤ t) : Real.arctan (t * a) ≤ t * Real.arctan a := by
  have hd : ∀ s : ℝ, HasDerivAt (fun s => s * Real.arctan a - Real.arctan (s * a)) (Real.arctan a - 1 / (1 + (s * a) ^ 2) * a) s := by
    intro s
    have h1 : HasDerivAt (fun s : ℝ => s * a) a s := by simpa using (hasDerivAt_id s).mul_const a
    have h2 : HasDerivAt (fun s : ℝ => s * Real.arctan a) (Real.arctan a) s := by simpa using (hasDerivAt_id s).mul_const (Real.arctan a)
    exact h2.sub h1.arctan
  have hm : MonotoneOn (fun s => s * Real.arctan a - Real.arctan (s * a)) (Set.Ici 1) := by
    refine monotoneOn_of_deriv_nonneg (convex_Ici 1) (fun s _ => (hd s).continuousAt.continuousWithinAt)
      (fun s _ => (hd s).differentiableAt.differentiableWithinAt) ?_
    intro s hs
    rw [interior_Ici] at hs
    have hs' : 1 < s := hs
    rw [(hd s).deriv]
    have h1 := div_le_arctan ha
    have h2 : 1 / (1 + (s * a) ^ 2) * a ≤ a / (1 + a ^ 2) := by
      rw [one_div_mul_eq_div]
      refine div_le_div_of_nonneg_left ha (by positivity) ?_
      have : a ≤ s * a := by nlinarith
      nlinarith
    linarith
  have := hm (Set.mem_Ici.2 le_rfl) (Set.mem_Ici.2 ht) ht
  simp only [one_mul] at this
  linarith

theorem arg_of_pos {x y : ℝ} (hx : 0 < x) : Complex.arg ⟨x, y⟩ = Real.arctan (y / x) := by
  have h := Complex.abs_arg_lt_pi_div_two_iff.2 (Or.inl hx : 0 < (⟨x, y⟩ : ℂ).re ∨ (⟨x, y⟩ : ℂ) = 0)
  rw [abs_lt] at h
  rw [← Real.arctan_tan h.1 h.2, Complex.tan_arg]

theorem arg_of_neg {x y : ℝ} (hx : x < 0) (hy : 0 < y) : Complex.arg ⟨x, y⟩ = Real.pi - Real.arctan (y / -x) := by
  have h := Complex.arg_neg_eq_arg_sub_pi_of_im_pos (x := ⟨x, y⟩) hy
  have e : -(⟨x, y⟩ : ℂ) = ⟨-x, -y⟩ := rfl
  rw [e, arg_of_pos (by linarith), neg_div, Real.arctan_neg] at h
  linarith

/-- Stretching the second coordinate changes the angle at most by the same factor. -/
theorem arg_stretch {x y t : ℝ} (hy : 0 ≤ y) (ht : 1 ≤ t) :
    Complex.arg ⟨x, y⟩ ≤ t * Complex.arg ⟨x, t * y⟩ ∧ Complex.arg ⟨x, t * y⟩ ≤ t * Complex.arg ⟨x, y⟩ := by
  have n1 : 0 ≤ Complex.arg ⟨x, y⟩ := Complex.arg_nonneg_iff.2 hy
  have n2 : 0 ≤ Complex.arg ⟨x, t * y⟩ := Complex.arg_nonneg_iff.2 (show 0 ≤ t * y by positivity)
  have same : Complex.arg ⟨x, t * y⟩ = Complex.arg ⟨x, y⟩ →
      Complex.arg ⟨x, y⟩ ≤ t * Complex.arg ⟨x, t * y⟩ ∧ Complex.arg ⟨x, t * y⟩ ≤ t * Complex.arg ⟨x, y⟩ := by
    intro h
    rw [h]
    have := mul_le_mul_of_nonneg_right ht n1
    constructor <;> linarith
  rcases eq_or_lt_of_le hy with h0 | hy
  · apply same
    rw [← h0, mul_zero]
  have ht0 : 0 < t := by linarith
  rcases lt_trichotomy x 0 with hx | hx | hx
  · have hb : 0 ≤ y / -x := div_nonneg hy.le (by linarith)
    rw [arg_of_neg hx hy, arg_of_neg hx (by positivity), mul_div_assoc]
    have h1 := arctan_mul_le hb ht
    have h2 : Real.arctan (y / -x) ≤ Real.arctan (t * (y / -x)) := Real.arctan_le_arctan_iff.2 (by nlinarith)
    have h3 := (Real.arctan_lt_pi_div_two (t * (y / -x))).le
    have h4 : 0 ≤ Real.arctan (y / -x) := Real.arctan_nonneg.2 hb
    have hpi := Real.pi_pos
    generalize Real.arctan (y / -x) = p at *
    generalize Real.arctan (t * (y / -x)) = q at *
    have hr : q / t ≤ p := by rw [div_le_iff₀ ht0]; linarith
    have hq : q / t * t = q := div_mul_cancel₀ _ ht0.ne'
    have hq0 : 0 ≤ q / t := div_nonneg (by linarith) ht0.le
    generalize q / t = r at *
    constructor
    · have hrq : r ≤ q := by nlinarith
      nlinarith [mul_nonneg (show 0 ≤ t - 1 by linarith) (show 0 ≤ Real.pi - (q + r) by linarith)]
    · nlinarith [mul_nonneg (show 0 ≤ t - 1 by linarith) (show 0 ≤ Real.pi - p by linarith)]
  · apply same
    subst hx
    have e : (⟨0, t * y⟩ : ℂ) = (t : ℂ) * ⟨0, y⟩ := by apply Complex.ext <;> simp
    rw [e, Complex.arg_real_mul _ ht0]
  · rw [arg_of_pos hx, arg_of_pos hx, mul_div_assoc]
    have hb : 0 ≤ y / x := div_nonneg hy.le hx.le
    have h1 := arctan_mul_le hb ht
    have h2 : Real.arctan (y / x) ≤ Real.arctan (t * (y / x)) := Real.arctan_le_arctan_iff.2 (by nlinarith)
    have h4 : 0 ≤ Real.arctan (y / x) := Real.arctan_nonneg.2 hb
    refine ⟨?_, h1⟩
    nlinarith

/-- A factor of the second coordinate. -/
theorem arg_factor {x y t : ℝ} (hy : 0 ≤ y) (ht : 0 < t) {w : ℝ} (hw : w ≤ t) (hw' : t * w ≤ 1) (hw0 : 0 < w) :
    w * Complex.arg ⟨x, y⟩ ≤ Complex.arg ⟨x, t * y⟩ ∧ w * Complex.arg ⟨x, t * y⟩ ≤ Complex.arg ⟨x, y⟩ := by
  have n1 : 0 ≤ Complex.arg ⟨x, y⟩ := Complex.arg_nonneg_iff.2 hy
  have n2 : 0 ≤ Complex.arg ⟨x, t * y⟩ := Complex.arg_nonneg_iff.2 (show 0 ≤ t * y by positivity)
  rcases le_total 1 t with h | h
  · obtain ⟨h1, h2⟩ := arg_stretch (x := x) hy h
    constructor
    · have := mul_le_mul_of_nonneg_left h1 hw0.le
      have k := mul_le_mul_of_nonneg_right hw' n2
      linarith
    · have := mul_le_mul_of_nonneg_left h2 hw0.le
      have k := mul_le_mul_of_nonneg_right hw' n1
      linarith
  · have hi : 1 ≤ t⁻¹ := (one_le_inv₀ ht).2 h
    obtain ⟨h1, h2⟩ := arg_stretch (x := x) (y := t * y) (by positivity) hi
    rw [← mul_assoc, inv_mul_cancel₀ ht.ne', one_mul] at h1 h2
    have hwt : w * t⁻¹ ≤ 1 := by
      rw [← div_eq_mul_inv, div_le_one ht]
      exact hw
    constructor
    · have := mul_le_mul_of_nonneg_left h2 hw0.le
      have k := mul_le_mul_of_nonneg_right hwt n2
      linarith
    · have := mul_le_mul_of_nonneg_left h1 hw0.le
      have k := mul_le_mul_of_nonneg_right hwt n1
      linarith

theorem within_of_bounds {u : ℝ} {k : ℕ} {a b : ℝ} (ha : 0 ≤ a) (hb : 0 ≤ b) (hu : u < 1) (h1 : (1 - u) ^ k * a ≤ b) (h2 : (1 - u) ^ k * b ≤ a)
    (hu0 : 0 ≤ u) : Within u k a b := by
  have hw : 0 < (1 - u) ^ k := pow_pos (by linarith) k
  rcases eq_or_lt_of_le ha with h | h
  · subst h
    have hb0 : b = 0 := by nlinarith
    have hw1 : (1 - u) ^ k ≤ 1 := pow_le_one₀ (by linarith) (by linarith)
    exact ⟨1, hw1, by simpa using hw1, by simp [hb0]⟩
  · refine ⟨b / a, ?_, ?_, (mul_div_cancel₀ _ h.ne').symm⟩
    · rwa [le_div_iff₀ h]
    · rw [div_mul_eq_mul_div, div_le_one h]
      linarith

/-- The error of an angle is that of the coordinates. -/
theorem within_arg {u : ℝ} (hu0 : 0 ≤ u) (hu1 : u < 1) {k l : ℕ} {x x' y y' : ℝ} (hx : Within u k x x') (hy : Within u l y y') :
    Within u (l + k) (Complex.arg ⟨x, y⟩) (Complex.arg ⟨x', y'⟩) := by
  obtain ⟨s, s1, s2, rfl⟩ := hx
  obtain ⟨t, t1, t2, rfl⟩ := hy
  have hk : 0 < (1 - u) ^ k := pow_pos (by linarith) k
  have hl : 0 < (1 - u) ^ l := pow_pos (by linarith) l
  have hs : 0 < s := lt_of_lt_of_le hk s1
  have ht : 0 < t := lt_of_lt_of_le hl t1
  have hr : 0 < t / s := div_pos ht hs
  have hw : (1 - u) ^ (l + k) ≤ t / s := by
    rw [pow_add, le_div_iff₀ hs]
    calc (1 - u) ^ l * (1 - u) ^ k * s = (1 - u) ^ l * (s * (1 - u) ^ k) := by ring
      _ ≤ (1 - u) ^ l * 1 := mul_le_mul_of_nonneg_left s2 hl.le
      _ ≤ t := by linarith
  have hw' : t / s * (1 - u) ^ (l + k) ≤ 1 := by
    rw [pow_add, div_mul_eq_mul_div, div_le_one hs]
    calc t * ((1 - u) ^ l * (1 - u) ^ k) = (t * (1 - u) ^ l) * (1 - u) ^ k := by ring
      _ ≤ 1 * (1 - u) ^ k := mul_le_mul_of_nonneg_right t2 hk.le
      _ ≤ s := by linarith
  have hw0 : 0 < (1 - u) ^ (l + k) := pow_pos (by linarith) _
  have scale : Complex.arg ⟨x * s, y * t⟩ = Complex.arg ⟨x, t / s * y⟩ := by
    have e : (⟨x * s, y * t⟩ : ℂ) = (s : ℂ) * ⟨x, t / s * y⟩ := by
      apply Complex.ext
      · simp [mul_comm]
      · simp; field_simp
    rw [e, Complex.arg_real_mul _ hs]
  rw [scale]
  rcases le_or_gt 0 y with h | h
  · obtain ⟨h1, h2⟩ := arg_factor (x := x) h hr hw hw' hw0
    exact within_of_bounds (Complex.arg_nonneg_iff.2 h) (Complex.arg_nonneg_iff.2 (show 0 ≤ t / s * y by positivity)) hu1 h1 h2 hu0
  · have conj : ∀ z : ℝ, z < 0 → Complex.arg ⟨x, z⟩ = -Complex.arg ⟨x, -z⟩ := by
      intro z hz
      have h := Complex.arg_conj ⟨x, -z⟩
      have hp : ¬ Complex.arg ⟨x, -z⟩ = Real.pi := by
        rw [Complex.arg_eq_pi_iff]
        rintro ⟨-, h⟩
        simp at h
        exact hz.ne h
      rw [if_neg hp] at h
      have e : (starRingEnd ℂ) ⟨x, -z⟩ = ⟨x, z⟩ := by apply Complex.ext <;> simp
      rw [e] at h
      exact h
    rw [conj y h, conj (t / s * y) (mul_neg_of_pos_of_neg hr h)]
    obtain ⟨h1, h2⟩ := arg_factor (x := x) (y := -y) (by linarith) hr hw hw' hw0
    rw [mul_neg] at h1 h2
    obtain ⟨f, f1, f2, f3⟩ := within_of_bounds (Complex.arg_nonneg_iff.2 (show 0 ≤ -y by linarith))
      (Complex.arg_nonneg_iff.2 (show 0 ≤ -(t / s * y) by nlinarith)) hu1 h1 h2 hu0
    exact ⟨f, f1, f2, by rw [f3]; ring⟩

end Postpic.Scalars
