import Verif.Spec.Constants
import Mathlib.Tactic.NormNum
import Mathlib.Tactic.FieldSimp
import Mathlib.Tactic.Ring
import Mathlib.Tactic.Linarith

/-!
# C97: critical density
-/

set_option autoImplicit false

namespace Postpic.Props

open Postpic.Constants Postpic.Spec

/-- The constants of vacuum belong together. -/
theorem vacuum_constants : mu0 * epsilon0 * c ^ 2 = 1 := by
  have h1 : mu0 ≠ 0 := by
    unfold mu0
    positivity
  have h2 : c ≠ 0 := by
    unfold c
    norm_num
  unfold epsilon0
  field_simp

/-- C97: the constants have the recommended values. Partial: not `mass_u`, see `mass_u_violated`. -/
theorem constants_partial : c = 299792458 ∧ Agrees me 9.1093837015e-31 ∧ Agrees qe 1.602176634e-19 ∧ Agrees mu0 1.25663706212e-6 ∧
    Agrees epsilon0 8.8541878128e-12 := by
  have l1 := Real.pi_gt_d20
  have l2 := Real.pi_lt_d20
  refine ⟨rfl, ?_, ?_, ?_, ?_⟩
  · unfold Agrees me
    rw [abs_le]
    constructor <;> norm_num
  · unfold Agrees qe
    rw [abs_le]
    constructor <;> norm_num
  · unfold Agrees mu0
    rw [abs_le]
    constructor <;> linarith
  · unfold Agrees epsilon0 mu0 c
    have hp := Real.pi_pos
    rw [abs_le, neg_le_sub_iff_le_add, sub_le_iff_le_add, div_le_iff₀ (by positivity), ← sub_le_iff_le_add, le_div_iff₀ (by positivity)]
    constructor <;> linarith

/-- C97: `mass_u` is larger than the atomic mass unit by 0.7 percent; it is the mass of a proton, to 0.003 percent. -/
theorem mass_u_violated : ¬ Agrees massU 1.66053906660e-27 ∧ 1.007 * 1.66053906660e-27 < massU ∧
    |massU - 1.67262192369e-27| ≤ 3e-5 * 1.67262192369e-27 := by
  unfold Agrees massU me
  rw [abs_le, abs_le]
  norm_num

/-- C97: at the critical density for a wavelength the plasma frequency is the frequency of the light, to half a percent.
Partial: not exactly, see `ncrit_violated`. -/
theorem ncrit_partial (lam : ℝ) (h : 0 < lam) :
    |plasmaFrequencySq (ncrit lam) - lightFrequency lam ^ 2| ≤ lightFrequency lam ^ 2 / 200 := by
  have hp := Real.pi_pos
  have e1 : plasmaFrequencySq (ncrit lam) =
      (1.11e15 * qe ^ 2 * 4e-7 * c ^ 2 / me) * Real.pi / lam ^ 2 := by
    unfold plasmaFrequencySq ncrit ncritUm epsilon0 mu0 me qe c
    field_simp
    norm_num
  have e2 : lightFrequency lam ^ 2 = 4 * c ^ 2 * Real.pi * Real.pi / lam ^ 2 := by
    unfold lightFrequency
    field_simp
    ring
  rw [e1, e2]
  have hq : 0 < Real.pi / lam ^ 2 := by positivity
  have e3 : (1.11e15 * qe ^ 2 * 4e-7 * c ^ 2 / me) * Real.pi / lam ^ 2 - 4 * c ^ 2 * Real.pi * Real.pi / lam ^ 2 =
      (1.11e15 * qe ^ 2 * 4e-7 * c ^ 2 / me - 4 * c ^ 2 * Real.pi) * (Real.pi / lam ^ 2) := by ring
  have e4 : 4 * c ^ 2 * Real.pi * Real.pi / lam ^ 2 / 200 = (4 * c ^ 2 * Real.pi / 200) * (Real.pi / lam ^ 2) := by ring
  rw [e3, e4, abs_mul, abs_of_pos hq]
  apply mul_le_mul_of_nonneg_right _ hq.le
  rw [abs_le]
  have l1 := Real.pi_gt_d4
  have l2 := Real.pi_lt_d4
  unfold qe c me
  constructor
  · have : (1.11e15 * 1.602176565e-19 ^ 2 * 4e-7 * 299792458 ^ 2 / 9.109383e-31 : ℝ) ≥ 1.1244e18 := by norm_num
    nlinarith
  · have : (1.11e15 * 1.602176565e-19 ^ 2 * 4e-7 * 299792458 ^ 2 / 9.109383e-31 : ℝ) ≤ 1.1246e18 := by norm_num
    nlinarith

example : |plasmaFrequencySq (ncrit 8e-7) - lightFrequency 8e-7 ^ 2| ≤ lightFrequency 8e-7 ^ 2 / 200 :=
  ncrit_partial 8e-7 (by norm_num)

/-- C97: the density is too small by more than 0.4 percent for every wavelength. -/
theorem ncrit_violated (lam : ℝ) (h : 0 < lam) :
    lightFrequency lam ^ 2 / 250 < lightFrequency lam ^ 2 - plasmaFrequencySq (ncrit lam) := by
  have hp := Real.pi_pos
  have e1 : plasmaFrequencySq (ncrit lam) =
      (1.11e15 * qe ^ 2 * 4e-7 * c ^ 2 / me) * Real.pi / lam ^ 2 := by
    unfold plasmaFrequencySq ncrit ncritUm epsilon0 mu0 me qe c
    field_simp
    norm_num
  have e2 : lightFrequency lam ^ 2 = 4 * c ^ 2 * Real.pi * Real.pi / lam ^ 2 := by
    unfold lightFrequency
    field_simp
    ring
  rw [e1, e2]
  have hq : 0 < Real.pi / lam ^ 2 := by positivity
  have l1 := Real.pi_gt_d4
  have key : 4 * c ^ 2 * Real.pi / 250 < 4 * c ^ 2 * Real.pi - 1.11e15 * qe ^ 2 * 4e-7 * c ^ 2 / me := by
    unfold qe c me
    have : (1.11e15 * 1.602176565e-19 ^ 2 * 4e-7 * 299792458 ^ 2 / 9.109383e-31 : ℝ) ≤ 1.12457e18 := by norm_num
    nlinarith
  have := mul_lt_mul_of_pos_right key hq
  calc _ = 4 * c ^ 2 * Real.pi / 250 * (Real.pi / lam ^ 2) := by ring
    _ < _ := this
    _ = _ := by ring

end Postpic.Props
