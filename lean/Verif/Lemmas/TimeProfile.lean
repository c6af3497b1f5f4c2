import Verif.Spec.TimeProfile
import Verif.Props.Propagate

/-!
# Lemmas about the time profile
-/

set_option autoImplicit false

namespace Postpic.Spec

open Postpic Postpic.Axes Postpic.Fields

noncomputable section

theorem profile_norm {dk : ℝ} (hdk : 0 < dk) {n : ℕ} (hn : 0 < n) :
    Real.sqrt (dk * n / (2 * Real.pi / dk)) / Real.sqrt n = dk / Real.sqrt (2 * Real.pi) := by
  have hpi := Real.pi_pos
  have hn' : (0 : ℝ) < n := by exact_mod_cast hn
  have h1 : dk * n / (2 * Real.pi / dk) = dk ^ 2 * n / (2 * Real.pi) := by field_simp
  rw [h1, Real.sqrt_div (by positivity), Real.sqrt_mul (by positivity), Real.sqrt_sq hdk.le]
  have := Real.sqrt_pos.2 hn'
  field_simp

theorem pyGet_last (a h : ℝ) {n : ℕ} (hn : 0 < n) : pyGet (ap a h n) (-1) = .ok (a + ((n : ℝ) - 1) * h) := by
  have hi : pyIdx (ap a h n).length (-1) = some (n - 1) := by
    rw [ap_length]
    unfold pyIdx
    rw [if_neg (by omega), if_pos (by omega)]
    congr 1
    omega
  rw [pyGet_of hi (ap_get a h n (n - 1) (by omega))]
  congr 2
  rw [Nat.cast_sub (by omega)]
  push_cast
  rfl

theorem initialTime_eq (a : ProfileArgs) (x0 h : ℝ) {n : ℕ} (hn : 0 < n) :
    initialTime a (ap x0 h n) h = .ok (profileStart a x0 h n) := by
  unfold initialTime profileStart measuringPlane
  cases hv : a.value with
  | none => simp
  | some v =>
    simp only [Option.getD_some, bind, Except.bind, pyGet_last x0 h hn, pyGet_ap x0 h hn, pure, Except.pure]
    unfold defaultPlane
    split_ifs
    · congr 2
      ring
    · rfl

/-- The direction of `profileArgs`. -/
theorem profile_direction (a : ProfileArgs) (N : ℕ) (d : Fin 3) (hd : d.val < N) (dt : ℝ) (mv z : Bool) (e : ℕ) :
    direction (profileArgs a N d dt mv z) e = if e = d.val then a.dir else 0 := by
  unfold direction profileArgs
  simp only [Option.getD_some]
  rw [List.getD_eq_getElem?_getD, List.getElem?_set]
  by_cases he : e = d.val
  · subst he
    rw [if_pos rfl, if_pos rfl]
    simp [hd]
  · rw [if_neg (Ne.symm he), if_neg he]
    rw [List.getElem?_replicate]
    split_ifs <;> rfl

theorem profile_ok (a : ProfileArgs) (hdir : a.dir = 1 ∨ a.dir = -1) (N : ℕ) (d : Fin 3) (hd : d.val < N) (dt : ℝ) (mv z : Bool) :
    PropagateOk (profileArgs a N d dt mv z) N := by
  have h0 : a.dir ≠ 0 := by rcases hdir with h | h <;> rw [h] <;> norm_num
  refine ⟨?_, by simp [profileArgs]⟩
  intro u hu
  simp only [profileArgs, Option.some.injEq] at hu
  subst hu
  refine ⟨by simp, a.dir, ?_, h0⟩
  apply List.mem_of_getElem? (i := d.val)
  rw [List.getElem?_set]
  simp [hd]

theorem profile_removed (a : ProfileArgs) (N : ℕ) (d : Fin 3) (hd : d.val < N) (dt : ℝ) (mv z : Bool) (k : Fin 3 → ℝ) :
    Removed (profileArgs a N d dt mv z) k ↔ Against a (k d) := by
  unfold Removed Against removes
  rw [profile_direction a N d hd, profile_direction a N d hd, profile_direction a N d hd]
  have h1 : ((profileArgs a N d dt mv z).removeAntipropagating = some true ∨
      (profileArgs a N d dt mv z).removeAntipropagating = none ∧ (profileArgs a N d dt mv z).movingWindowVect ≠ none) ↔
      a.removeAntipropagating ≠ some false := by
    unfold profileArgs
    rcases a.removeAntipropagating with _ | _ | _ <;> simp
  rw [h1]
  have h2 : (if 0 = d.val then a.dir else 0) * k 0 + (if 1 = d.val then a.dir else 0) * k 1 +
      (if 2 = d.val then a.dir else 0) * k 2 = a.dir * k d := by
    fin_cases d <;> simp
  rw [h2]

theorem profile_window (a : ProfileArgs) (hdir : a.dir = 1 ∨ a.dir = -1) (N : ℕ) (d : Fin 3) (hd : d.val < N) (dt t : ℝ)
    (mv z : Bool) (e : ℕ) : windowShift (profileArgs a N d dt mv z) t e =
      if mv = true ∧ e = d.val then lightSpeed * t * a.dir else 0 := by
  unfold windowShift moves
  rw [profile_direction a N d hd, profile_direction a N d hd, profile_direction a N d hd, profile_direction a N d hd]
  have h2 : Real.sqrt ((if 0 = d.val then a.dir else 0) ^ 2 + (if 1 = d.val then a.dir else 0) ^ 2 +
      (if 2 = d.val then a.dir else 0) ^ 2) = 1 := by
    have : (if 0 = d.val then a.dir else 0) ^ 2 + (if 1 = d.val then a.dir else 0) ^ 2 +
        (if 2 = d.val then a.dir else 0) ^ 2 = 1 := by
      fin_cases d <;> simp <;> rcases hdir with h | h <;> rw [h] <;> norm_num
    rw [this, Real.sqrt_one]
  rw [h2, div_one]
  by_cases he : e = d.val
  · cases mv <;> simp [profileArgs, he]
  · cases mv <;> simp [profileArgs, he]

/-- The position of the plane, up to the length of the box: it is where the window starts after the first propagation. -/
theorem plane_origin (a : ProfileArgs) (hdir : a.dir = 1 ∨ a.dir = -1) (x0 h : ℝ) (n : ℕ) :
    x0 + lightSpeed * profileStart a x0 h n * a.dir = measuringPlane a x0 h n - (if 0 < a.dir then n * h else 0) := by
  have hc : (lightSpeed : ℝ) ≠ 0 := by unfold lightSpeed; norm_num
  have hd2 : a.dir * a.dir = 1 := by rcases hdir with h | h <;> rw [h] <;> norm_num
  have : lightSpeed * profileStart a x0 h n * a.dir = measuringPlane a x0 h n - defaultPlane a x0 h n := by
    unfold profileStart
    field_simp
    rw [pow_two, hd2, one_mul]
  rw [this]
  unfold defaultPlane
  split_ifs <;> ring

/-- The phases of the code and of the specification. -/
theorem plane_phase {dk h k0 X s : ℝ} {n : ℕ} (hdk : dk * (n * h) = 2 * Real.pi) (hs : s = n * h ∨ s = 0) (m : ℕ) :
    Complex.exp (1 * Complex.I * (((X - s) * (k0 + m * dk) + -(k0 * (X - s)) : ℝ) : ℂ)) =
      Complex.exp (-(Complex.I * ((k0 * X : ℝ) : ℂ))) * Complex.exp (Complex.I * (((k0 + m * dk) * X : ℝ) : ℂ)) := by
  rw [← Complex.exp_add]
  rcases hs with rfl | rfl
  · rw [Complex.exp_eq_exp_iff_exists_int]
    refine ⟨-m, ?_⟩
    have : ((X - n * h) * (k0 + m * dk) + -(k0 * (X - n * h)) : ℝ) = m * dk * X - m * (2 * Real.pi) := by
      rw [← hdk]
      ring
    rw [this]
    push_cast
    ring
  · congr 1
    push_cast
    ring

end

end Postpic.Spec
