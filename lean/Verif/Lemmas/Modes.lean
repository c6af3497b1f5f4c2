import Verif.Lemmas.Field
import Verif.Model.Modes
import Verif.Spec.Modes

/-!
# Lemmas on azimuthal modes
-/

set_option autoImplicit false

namespace Postpic.Readers

open Postpic Postpic.Fields Postpic.Spec

theorem factors_length (nm : ℕ) (theta : ℝ) : (fbpicFactors nm theta).length = 1 + 2 * ((nm + 1) / 2 - 1) := by
  simp only [fbpicFactors, List.length_cons, List.length_flatMap, List.length_nil]
  simp
  ring

theorem pairs_sum (c d f : ℕ → ℝ) : ∀ (M s : ℕ), 1 ≤ s →
    ((((List.range' s M).flatMap fun m => [c m, d m]).zipIdx (2 * s - 1)).map fun p => p.1 * f p.2).sum =
      ∑ m ∈ Finset.Ico s (s + M), (c m * f (2 * m - 1) + d m * f (2 * m))
  | 0, s, _ => by simp
  | M + 1, s, hs => by
    have ih := pairs_sum c d f M (s + 1) (by omega)
    rw [List.range'_succ, List.flatMap_cons, List.zipIdx_append, List.map_append, List.sum_append]
    rw [show 2 * s - 1 + [c s, d s].length = 2 * (s + 1) - 1 by simp; omega, ih,
      Finset.sum_eq_sum_Ico_succ_bot (by omega : s < s + (M + 1)), show s + 1 + M = s + (M + 1) by ring]
    congr 1
    simp only [List.zipIdx_cons, List.zipIdx_nil, List.map_cons, List.map_nil, List.sum_cons, List.sum_nil, add_zero]
    rw [show 2 * s - 1 + 1 = 2 * s by omega]

/-- The cosine coefficients in the order of fbpic. -/
def cosCoeff (f : ℕ → ℝ) (m : ℕ) : ℝ := if m = 0 then f 0 else f (2 * m - 1)

theorem factors_sum (M : ℕ) (theta : ℝ) (f : ℕ → ℝ) :
    ((fbpicFactors (2 * M + 1) theta).zipIdx.map fun p => p.1 * f p.2).sum =
      azimuthalSeries M (cosCoeff f) (fun m => f (2 * m)) theta := by
  unfold fbpicFactors azimuthalSeries
  rw [show (2 * M + 1 + 1) / 2 - 1 = M by omega, List.zipIdx_cons, List.map_cons, List.sum_cons]
  have h := pairs_sum (fun m => Real.cos (m * theta)) (fun m => Real.sin (m * theta)) f M 1 le_rfl
  rw [show (0 + 1 : ℕ) = 2 * 1 - 1 by rfl, h]
  have e : Finset.Ico 1 (1 + M) = Finset.Icc 1 M := by
    ext m
    simp
    omega
  rw [e]
  congr 1
  · simp [cosCoeff]
  · apply Finset.sum_congr rfl
    intro m hm
    have : m ≠ 0 := by
      have := (Finset.mem_Icc.1 hm).1
      omega
    simp only [cosCoeff, if_neg this]
    ring

theorem re_mul_exp (c : ℂ) (x : ℝ) :
    (c * Complex.exp (-(x * Complex.I))).re = c.re * Real.cos x + c.im * Real.sin x := by
  have : Complex.exp (-(x * Complex.I)) = ⟨Real.cos x, -Real.sin x⟩ := by
    rw [← neg_mul, ← Complex.ofReal_neg, Complex.exp_mul_I, ← Complex.ofReal_cos, ← Complex.ofReal_sin]
    apply Complex.ext <;> simp [Complex.cos_ofReal_re, Complex.sin_ofReal_re, -Complex.ofReal_cos, -Complex.ofReal_sin]
  rw [this, Complex.mul_re]
  simp

theorem fft_sum (raw : ℕ → ℕ → ℕ → ℝ) (junk : ℕ → ℕ → ℕ → ℂ) (M r k z : ℕ) :
    (∑ m ∈ Finset.range (M + 1), fbpicCoeff raw junk (M + 1) r m z *
        Complex.exp (-(2 * Real.pi * Complex.I * (k : ℕ) * m / ((M + 1 : ℕ) : ℂ)))).re =
      azimuthalSeries M (cosCoeff fun m => raw m r z) (fun m => raw (2 * m) r z)
        (k * (2 * Real.pi / ((M + 1 : ℕ) : ℝ))) := by
  have key : ∀ m : ℕ, (fbpicCoeff raw junk (M + 1) r m z *
      Complex.exp (-(2 * Real.pi * Complex.I * (k : ℕ) * m / ((M + 1 : ℕ) : ℂ)))).re =
      (fbpicCoeff raw junk (M + 1) r m z).re * Real.cos (m * (k * (2 * Real.pi / ((M + 1 : ℕ) : ℝ)))) +
      (fbpicCoeff raw junk (M + 1) r m z).im * Real.sin (m * (k * (2 * Real.pi / ((M + 1 : ℕ) : ℝ)))) := by
    intro m
    rw [← re_mul_exp]
    congr 3
    push_cast
    ring
  rw [Complex.re_sum, Finset.sum_congr rfl fun m _ => key m, Finset.range_eq_Ico,
    Finset.sum_eq_sum_Ico_succ_bot (by omega)]
  unfold azimuthalSeries
  congr 1
  · simp [fbpicCoeff, cosCoeff]
  · have e : Finset.Ico (0 + 1) (M + 1) = Finset.Icc 1 M := by
      ext m
      simp only [Finset.mem_Ico, Finset.mem_Icc]
      omega
    rw [e]
    apply Finset.sum_congr rfl
    intro m hm
    obtain ⟨h1, h2⟩ := Finset.mem_Icc.1 hm
    have h0 : m ≠ 0 := by omega
    simp only [fbpicCoeff, if_neg h0, if_pos (show m < M + 1 by omega), cosCoeff]

theorem fold_sum (g : ℕ → ℝ) (nm : ℕ) (x : ℝ) :
    (List.range nm).foldl (fun F m => F + g m) x = x + ∑ m ∈ Finset.range nm, g m := by
  induction nm with
  | zero => simp
  | succ n ih =>
    rw [List.range_succ, List.foldl_append, ih, Finset.sum_range_succ]
    simp only [List.foldl_cons, List.foldl_nil]
    ring

theorem smilei_sum (raw : ℕ → ℂ) (M : ℕ) (t : ℝ) :
    ∑ m ∈ Finset.range (M + 1), ((raw m).re * Real.cos (m * t) + (raw m).im * Real.sin (m * t)) =
      azimuthalSeries M (fun m => (raw m).re) (fun m => (raw m).im) t := by
  unfold azimuthalSeries
  rw [Finset.range_eq_Ico, Finset.sum_eq_sum_Ico_succ_bot (by omega)]
  have e : Finset.Ico (0 + 1) (M + 1) = Finset.Icc 1 M := by
    ext m
    simp only [Finset.mem_Ico, Finset.mem_Icc]
    omega
  rw [e]
  simp

theorem smileiLoop_sum (nm : ℕ) (raw : ℕ → List ℕ → ℂ) (idx : List ℕ) : ∀ (ts : List ℝ) (total : List ℕ → ℝ),
    smileiLoop nm raw ts total idx = total idx + (ts.map fun t => ∑ m ∈ Finset.range nm,
      ((raw m idx).re * Real.cos (m * t) + (raw m idx).im * Real.sin (m * t))).sum
  | [], total => by simp [smileiLoop]
  | t :: ts, total => by
    rw [smileiLoop, smileiLoop_sum nm raw idx ts, fold_sum]
    simp
    ring

theorem maxMode_spec {names : ModeNames} {m : ℕ} (h : maxMode names = some m) :
    (∃ s, (s, m) ∈ names) ∧ ∀ p ∈ names, p.2 ≤ m := by
  induction names generalizing m with
  | nil => simp [maxMode] at h
  | cons p l ih =>
    unfold maxMode at h
    split at h
    · rename_i hl
      cases h
      cases l with
      | nil => exact ⟨⟨p.1, by simp⟩, by simp⟩
      | cons q l =>
        unfold maxMode at hl
        split at hl <;> simp at hl
    · rename_i k hl
      cases h
      obtain ⟨⟨s, hs⟩, hle⟩ := ih hl
      constructor
      · rcases le_total p.2 k with hk | hk
        · rw [max_eq_right hk]
          exact ⟨s, List.mem_cons_of_mem _ hs⟩
        · rw [max_eq_left hk]
          exact ⟨p.1, by simp⟩
      · intro q hq
        rcases List.mem_cons.1 hq with rfl | hq
        · exact le_max_left _ _
        · exact (hle q hq).trans (le_max_right _ _)

theorem maxMode_some {names : ModeNames} (h : names ≠ []) : ∃ m, maxMode names = some m := by
  cases names with
  | nil => exact absurd rfl h
  | cons p l =>
    unfold maxMode
    cases maxMode l <;> exact ⟨_, rfl⟩

end Postpic.Readers
