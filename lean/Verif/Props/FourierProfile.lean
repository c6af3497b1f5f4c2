import Mathlib.Analysis.Calculus.Deriv.Add
import Mathlib.Analysis.Calculus.Deriv.Mul
import Mathlib.Analysis.Calculus.Deriv.Pow
import Verif.Model.FourierProfile
import Verif.Spec.FourierProfile

/-!
# The time profile with the Fourier algorithm
-/

set_option autoImplicit false

namespace Postpic.Props

open Postpic Postpic.Axes Postpic.Fields Postpic.Spec

noncomputable section

theorem squares_nonneg (l : List ℝ) : 0 ≤ (l.map (· ^ 2)).sum := by
  apply List.sum_nonneg
  intro x hx
  obtain ⟨y, _, rfl⟩ := List.mem_map.1 hx
  positivity

theorem lightSpeed_pos : 0 < lightSpeed := by unfold lightSpeed; norm_num

/-! ## C98: the formulas of the Fourier algorithm -/

/-- C98: the field at the frequency `w` and the transverse components `perp` is taken from the wave vector which has this
frequency and the given direction along the axis. -/
theorem profile_dispersion (dir w : ℝ) (hdir : dir ≠ 0) (perp : List ℝ) (hp : perp ≠ []) (hw : 0 ≤ w)
    (hreal : (perp.map (· ^ 2)).sum < (w / lightSpeed) ^ 2) :
    ∃ kl, profileLong dir w perp = .ok kl ∧ frequencyAlong perp kl = w ∧ 0 < dir * kl := by
  have hc := lightSpeed_pos
  have hi : 0 < (w / lightSpeed) ^ 2 - (perp.map (· ^ 2)).sum := by linarith
  have hs := Real.sqrt_pos.2 hi
  have hsq := Real.sq_sqrt hi.le
  have hfreq : ∀ x : ℝ, x ^ 2 = (w / lightSpeed) ^ 2 - (perp.map (· ^ 2)).sum → frequencyAlong perp x = w := by
    intro x hx
    unfold frequencyAlong
    rw [hx, sub_add_cancel, Real.sqrt_sq (by positivity)]
    field_simp
  unfold profileLong
  rw [if_neg hp]
  simp only [if_pos hi]
  refine ⟨_, rfl, ?_, ?_⟩
  · apply hfreq
    split_ifs
    · exact hsq
    · rw [neg_sq]
      exact hsq
  · split_ifs with hd
    · positivity
    · have : dir < 0 := lt_of_le_of_ne (not_lt.1 hd) hdir
      nlinarith

/-- C98: and the other way round, every wave vector with the given direction is used, at its frequency. -/
theorem profile_dispersion_onto (dir kl : ℝ) (perp : List ℝ) (hp : perp ≠ []) (hk : 0 < dir * kl) :
    profileLong dir (frequencyAlong perp kl) perp = .ok kl := by
  have hc := lightSpeed_pos
  have hq := squares_nonneg perp
  have hk0 : kl ≠ 0 := by
    rintro rfl
    simp at hk
  have hk2 : 0 < kl ^ 2 := by positivity
  have hin : (frequencyAlong perp kl / lightSpeed) ^ 2 - (perp.map (· ^ 2)).sum = kl ^ 2 := by
    unfold frequencyAlong
    rw [mul_div_cancel_left₀ _ hc.ne', Real.sq_sqrt (by positivity)]
    ring
  unfold profileLong
  rw [if_neg hp]
  simp only [hin, if_pos hk2, Real.sqrt_sq_eq_abs]
  split_ifs with hd
  · rw [abs_of_pos (by by_contra h; nlinarith [not_lt.1 h])]
  · have hd' := not_lt.1 hd
    have : kl < 0 := by
      by_contra h
      have := not_lt.1 h
      nlinarith
    rw [abs_of_neg this, neg_neg]

example : profileLong 1 (frequencyAlong [3] 4) [3] = .ok 4 := profile_dispersion_onto 1 4 [3] (by simp) (by norm_num)

/-- The derivative of the frequency. -/
theorem frequency_deriv (perp : List ℝ) (kl : ℝ) (hk : kl ≠ 0) :
    HasDerivAt (frequencyAlong perp) (lightSpeed * (kl / Real.sqrt (kl ^ 2 + (perp.map (· ^ 2)).sum))) kl := by
  have hq := squares_nonneg perp
  have hk2 : 0 < kl ^ 2 := by positivity
  have hpos : 0 < kl ^ 2 + (perp.map (· ^ 2)).sum := by linarith
  have h1 : HasDerivAt (fun x : ℝ => x ^ 2 + (perp.map (· ^ 2)).sum) (2 * kl) kl := by
    have h0 : HasDerivAt (fun x : ℝ => x ^ 2) (2 * kl) kl := by
      have := hasDerivAt_pow 2 kl
      norm_num at this
      exact this
    exact HasDerivAt.add_const _ h0
  have h2 := HasDerivAt.const_mul lightSpeed (HasDerivAt.sqrt h1 hpos.ne')
  have e : lightSpeed * (2 * kl / (2 * Real.sqrt (kl ^ 2 + (perp.map (· ^ 2)).sum))) =
      lightSpeed * (kl / Real.sqrt (kl ^ 2 + (perp.map (· ^ 2)).sum)) := by
    rw [mul_div_mul_left _ _ (by norm_num : (2 : ℝ) ≠ 0)]
  rw [← e]
  exact h2

/-- C98: for waves along the axis (`dir > 0`) the amplitude is the amplitude per frequency of the wave at the plane, times the speed
of light. Waves against the direction do not contribute. Partial: the factor should not be there (see
`profile_unit_violated`), for `dir < 0` the sign is wrong (see `profile_backward_violated`), and where the component
along the axis is 0 the result is not a number (see `profile_nan_violated`). -/
theorem profile_amplitude_partial (dir value kl : ℝ) (perp : List ℝ) (a : ℂ) (hdir : 0 < dir) :
    (0 < kl → ∃ b : ℂ, profileAmplitude dir value kl perp a = some (lightSpeed * b) ∧ AmplitudePerFrequency perp kl value a b) ∧
      (kl < 0 → profileAmplitude dir value kl perp a = some 0) := by
  have hc := lightSpeed_pos
  constructor
  · intro hk
    have hq := squares_nonneg perp
    have hpos : 0 < kl ^ 2 + (perp.map (· ^ 2)).sum := by
      have : 0 < kl ^ 2 := by positivity
      linarith
    have hs := Real.sqrt_pos.2 hpos
    set s := Real.sqrt (kl ^ 2 + (perp.map (· ^ 2)).sum) with hsdef
    have hD : 0 < lightSpeed * (kl / s) := by positivity
    refine ⟨_, ?_, _, frequency_deriv perp kl hk.ne', hD.ne', rfl⟩
    unfold profileAmplitude
    rw [if_neg, if_neg hk.ne']
    · rw [← hsdef, abs_of_pos hD]
      have e1 : (lightSpeed : ℂ) ≠ 0 := by exact_mod_cast hc.ne'
      have e2 : (kl : ℂ) ≠ 0 := by exact_mod_cast hk.ne'
      have e3 : (s : ℂ) ≠ 0 := by exact_mod_cast hs.ne'
      congr 1
      push_cast
      rw [show Complex.I * (value : ℂ) * kl = Complex.I * (kl * value) by ring]
      field_simp
    · rw [if_pos hdir]
      rintro (h | ⟨h, _⟩) <;> linarith
  · intro hk
    unfold profileAmplitude
    rw [if_pos]
    left
    rw [if_pos hdir]
    exact hk

example : 0 < lightSpeed ∧ profileAmplitude 1 2 (-3) [4] 1 = some 0 :=
  ⟨lightSpeed_pos, (profile_amplitude_partial 1 2 (-3) [4] 1 one_pos).2 (by norm_num)⟩

/-- C98 violated: the amplitude is larger than the amplitude per frequency by the factor of the speed of light. -/
theorem profile_unit_violated : ∃ b : ℂ, AmplitudePerFrequency [0] 1 0 1 b ∧ profileAmplitude 1 0 1 [0] 1 = some (lightSpeed * b) ∧
    profileAmplitude 1 0 1 [0] 1 ≠ some b := by
  obtain ⟨b, h1, h2⟩ := (profile_amplitude_partial 1 0 1 [0] 1 one_pos).1 one_pos
  refine ⟨b, h2, h1, ?_⟩
  rw [h1]
  intro h
  have h := Option.some.inj h
  obtain ⟨D, _, hD, rfl⟩ := h2
  have hne : (1 : ℂ) * Complex.exp (Complex.I * ((1 * 0 : ℝ) : ℂ)) / ((|D| : ℝ) : ℂ) ≠ 0 := by
    apply div_ne_zero
    · simp
    · exact_mod_cast abs_ne_zero.2 hD
  have : (lightSpeed : ℂ) = 1 := by
    have := mul_right_cancel₀ hne (h.trans (one_mul _).symm)
    exact this
  have : lightSpeed = 1 := by exact_mod_cast this
  unfold lightSpeed at this
  norm_num at this

/-- C98 violated: for waves against the axis (`dir < 0`) the sign is wrong in addition. -/
theorem profile_backward_violated (dir value kl : ℝ) (perp : List ℝ) (a : ℂ) (hdir : dir < 0) (hk : kl < 0) :
    ∃ b : ℂ, profileAmplitude dir value kl perp a = some (-(lightSpeed * b)) ∧ AmplitudePerFrequency perp kl value a b := by
  have hc := lightSpeed_pos
  have hq := squares_nonneg perp
  have hpos : 0 < kl ^ 2 + (perp.map (· ^ 2)).sum := by
    have : 0 < kl ^ 2 := sq_pos_of_neg hk
    linarith
  have hs := Real.sqrt_pos.2 hpos
  set s := Real.sqrt (kl ^ 2 + (perp.map (· ^ 2)).sum) with hsdef
  have hD : lightSpeed * (kl / s) < 0 := mul_neg_of_pos_of_neg hc (div_neg_of_neg_of_pos hk hs)
  refine ⟨_, ?_, _, frequency_deriv perp kl hk.ne, hD.ne, rfl⟩
  unfold profileAmplitude
  rw [if_neg, if_neg hk.ne]
  · rw [← hsdef, abs_of_neg hD]
    have e1 : (lightSpeed : ℂ) ≠ 0 := by exact_mod_cast hc.ne'
    have e2 : (kl : ℂ) ≠ 0 := by exact_mod_cast hk.ne
    have e3 : (s : ℂ) ≠ 0 := by exact_mod_cast hs.ne'
    congr 1
    push_cast
    rw [show Complex.I * (value : ℂ) * kl = Complex.I * (kl * value) by ring]
    field_simp
  · rw [if_neg (not_lt.2 hdir.le)]
    rintro (h | ⟨h, _⟩) <;> linarith

/-- C98 violated: waves perpendicular to the axis give something which is not a number, for every field and direction. -/
theorem profile_nan_violated (dir value : ℝ) (perp : List ℝ) (a : ℂ) (h : ∃ q ∈ perp, q ≠ 0) :
    profileAmplitude dir value 0 perp a = none := by
  unfold profileAmplitude
  rw [if_neg, if_pos rfl]
  rintro (h' | ⟨_, h'⟩)
  · split_ifs at h' <;> exact lt_irrefl _ h'
  · obtain ⟨q, hq, hq0⟩ := h
    exact hq0 (h' q hq)

example : profileAmplitude 1 0 0 [1] 1 = none := profile_nan_violated 1 0 [1] 1 ⟨1, by simp, by norm_num⟩

/-- C98 violated: with one dimension the default algorithm raises a `TypeError`. -/
theorem profile_1d_violated (dir w : ℝ) : profileLong dir w [] = .error .typeError := rfl

/-- C98: for `dir > 0` the axis of the time begins when the front end of the box reaches the plane: every part of the field in
the box passes the plane at a time between the beginning and the end of the axis, whose length is that of the box over the
speed of light. Partial: not for `dir < 0` (see `profile_window_violated`). -/
theorem profile_window_partial (dir tInput lo hi value x : ℝ) (hdir : 0 < dir) (h1 : lo ≤ x) (h2 : x ≤ hi) :
    profileStart tInput hi value ≤ passes dir tInput x value ∧
      passes dir tInput x value ≤ profileStart tInput hi value + (hi - lo) / lightSpeed := by
  have hc := lightSpeed_pos
  unfold profileStart passes
  rw [if_pos hdir]
  constructor
  · have : (value - x) / lightSpeed + (hi - value) / lightSpeed = (hi - x) / lightSpeed := by ring
    have : 0 ≤ (hi - x) / lightSpeed := div_nonneg (by linarith) hc.le
    linarith
  · have : (hi - lo) / lightSpeed - (hi - value) / lightSpeed - (value - x) / lightSpeed = (x - lo) / lightSpeed := by ring
    have : 0 ≤ (x - lo) / lightSpeed := div_nonneg (by linarith) hc.le
    linarith

example : profileStart 0 1 2 ≤ passes 1 0 (1 / 2) 2 := (profile_window_partial 1 0 0 1 2 (1 / 2) one_pos (by norm_num) (by norm_num)).1

/-- C98 violated: for `dir < 0` and the plane at the beginning of the box, nothing passes the plane during the time of the axis
(but at its end). -/
theorem profile_window_violated (tInput lo hi x : ℝ) (h1 : lo < x) :
    profileStart tInput hi lo + (hi - lo) / lightSpeed < passes (-1) tInput x lo := by
  have hc := lightSpeed_pos
  unfold profileStart passes
  rw [if_neg (by norm_num)]
  have : 0 < (x - lo) / lightSpeed := div_pos (by linarith) hc
  linarith

/-- C98 violated: without `value` the plane is in the middle of the box, for both directions; according to the documentation it is
at the first point or one cell behind the last one. -/
theorem profile_plane_violated (lo hi : ℝ) (h : lo < hi) :
    profilePlane none lo hi = (lo + hi) / 2 ∧ lo < profilePlane none lo hi ∧ profilePlane none lo hi < hi := by
  have : profilePlane none lo hi = (lo + hi) / 2 := by
    unfold profilePlane
    norm_num
    ring
  rw [this]
  exact ⟨rfl, by linarith, by linarith⟩

/-- C98: the time of the input is a shift of the axis of the time: the phase of every frequency changes by `w t`, and negative
frequencies are removed. -/
theorem profile_time (tInput w : ℝ) (a : ℂ) :
    (w < 0 → profileTime tInput w a = 0) ∧
      (0 ≤ w → profileTime tInput w a = Complex.exp (Complex.I * (w * tInput : ℝ)) * a ∧ ‖profileTime tInput w a‖ = ‖a‖) ∧
      ∀ s, profileTime (tInput + s) w a = profileTime tInput w (profileTime s w a) := by
  refine ⟨fun h => by unfold profileTime; rw [if_pos h], fun h => ?_, fun s => ?_⟩
  · have e : profileTime tInput w a = Complex.exp (Complex.I * (w * tInput : ℝ)) * a := by
      unfold profileTime
      rw [if_neg (not_lt.2 h), mul_comm]
      push_cast
      ring_nf
    refine ⟨e, ?_⟩
    rw [e, norm_mul, mul_comm Complex.I, Complex.norm_exp_ofReal_mul_I, one_mul]
  · unfold profileTime
    split_ifs
    · rfl
    · rw [mul_assoc a, ← Complex.exp_add]
      push_cast
      ring_nf

/-- C98: two algorithms can be chosen by their names. Another name: a `RuntimeError`. Additional keyword arguments are handed on to
the iterative algorithm, with the Fourier algorithm they lead to a warning and nothing else. -/
theorem profile_algorithms {α β : Type} (fourier : Res α) (iterative : List β → Res α) (extra : List β) :
    timeProfileAtPlane fourier iterative "fourier" extra = (fourier, decide (extra ≠ [])) ∧
      timeProfileAtPlane fourier iterative "iterative" extra = (iterative extra, false) ∧
      ∀ s, s ≠ "fourier" → s ≠ "iterative" → (timeProfileAtPlane fourier iterative s extra).1 = .error .runtimeError := by
  refine ⟨?_, rfl, ?_⟩
  · unfold timeProfileAtPlane
    rw [if_pos rfl]
    congr 1
    apply decide_eq_decide.2
    cases extra <;> simp
  · intro s h1 h2
    unfold timeProfileAtPlane
    rw [if_neg h1, if_neg h2]

example : (timeProfileAtPlane (.ok 1) (fun _ => .ok 2) "Fourier" ([] : List ℕ)).1 = .error .runtimeError :=
  (profile_algorithms (.ok 1) (fun _ => .ok 2) ([] : List ℕ)).2.2 "Fourier" (by decide) (by decide)

end

end Postpic.Props
