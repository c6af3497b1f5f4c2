import Mathlib.Tactic.Positivity
import Verif.Spec.Limited
import Verif.Lemmas.SumDouble
import Verif.Props.HistogramEdge

/-!
# Lemmas about positions of particles, computed with limits of the exponent
-/

set_option autoImplicit false
set_option linter.unusedSectionVars false

namespace Postpic.Histogram

open Postpic Postpic.Spec Postpic.Props Postpic.Fields

/-- The position is in one of the bins `i` to `j - 1`. -/
def between {K : Type} [_root_.Field K] [LinearOrder K] (i j : ℕ) (x : Dbl K) : Bool := (Dbl.fin 0).lt x && (Dbl.fin (i : K)).le x && x.lt (.fin (j : K))

section
variable {K : Type} [_root_.Field K] [LinearOrder K] [IsStrictOrderedRing K] [FloorRing K] {rnd : K → Dbl K} {u E B : K}

theorem inBin_between (i : ℕ) (x : Dbl K) : inBin i x = between i (i + 1) x := by
  unfold inBin between
  rw [Nat.cast_add, Nat.cast_one]

theorem between_inf (i j : ℕ) (s : Bool) : between (K := K) i j (.inf s) = false := by cases s <;> simp [between, Dbl.lt, Dbl.le]

theorem between_fin_iff (i j : ℕ) (y : K) : between i j (.fin y) = true ↔ 0 < y ∧ (i : K) ≤ y ∧ y < j := by
  simp [between, Dbl.lt, Dbl.le, and_assoc]

/-- Numbers which are not smaller than the number of bins are rounded to such numbers. -/
theorem between_far (hr : Rounding rnd) {i j bins : ℕ} (hj : j ≤ bins) (hb : bins ≤ 2 ^ 31) {z : K} (hz : (bins : K) ≤ |z|) :
    between i j (rnd z) = false := by
  have hjb : (j : K) ≤ bins := by exact_mod_cast hj
  have ex : ∀ n : ℤ, |n| ≤ 2 ^ 31 → rnd (n : K) = .fin n := by
    intro n hn
    have := hr.exact (2 * n) (by rw [abs_mul]; norm_num; omega)
    rwa [show ((2 * n : ℤ) : K) / 2 = n by push_cast; ring] at this
  rcases le_total 0 z with h0 | h0
  · rw [abs_of_nonneg h0] at hz
    have h1 := hr.mono _ _ hz
    have h2 := ex bins (by rw [Nat.abs_cast]; exact_mod_cast hb)
    rw [Int.cast_natCast] at h2
    rw [h2] at h1
    cases hy : rnd z with
    | nan => simp [between, Dbl.lt]
    | inf s => exact between_inf i j s
    | fin y =>
      rw [hy] at h1
      simp only [Dbl.le, decide_eq_true_eq] at h1
      rw [← Bool.not_eq_true, between_fin_iff]
      rintro ⟨-, -, h3⟩
      linarith
  · have h1 := hr.mono z 0 h0
    have h2 := ex 0 (by norm_num)
    rw [Int.cast_zero] at h2
    rw [h2] at h1
    cases hy : rnd z with
    | nan => simp [between, Dbl.lt]
    | inf s => exact between_inf i j s
    | fin y =>
      rw [hy] at h1
      simp only [Dbl.le, decide_eq_true_eq] at h1
      rw [← Bool.not_eq_true, between_fin_iff]
      rintro ⟨h3, -, -⟩
      linarith

theorem within_half (hu : 0 ≤ u) (hu1 : u < 1) (h5 : 1 / 2 ≤ (1 - u) ^ 5) {k : ℕ} (hk : k ≤ 5) {x y : K} (h : Within u k x y) :
    |x| ≤ 2 * |y| ∧ |y| ≤ 2 * |x| := by
  obtain ⟨t, h1, h2, rfl⟩ := within_mono hu hu1 hk h
  have t0 : 0 < t := lt_of_lt_of_le (by linarith) h1
  rw [abs_mul, abs_of_pos t0]
  have hx := abs_nonneg x
  constructor
  · nlinarith
  · have : t ≤ 2 := by nlinarith
    nlinarith

set_option maxHeartbeats 1000000 in
/-- The factor which turns lengths into numbers of bins. -/
theorem spacing_limited (L : Limited rnd u E B) (hu1 : u < 1) (h5 : 1 / 2 ≤ (1 - u) ^ 5) {P : K} (hP : 2 ^ 40 ≤ P) (hB : P ^ 2 ≤ B)
    (hE : E * P ^ 2 ≤ 1) {xmin xmax : K} (hxmin : rnd xmin = .fin xmin) (hxmax : rnd xmax = .fin xmax) (hw1 : 1 ≤ |xmax - xmin| * P)
    (hw2 : |xmax - xmin| ≤ P) {bins : ℕ} (hb0 : 0 < bins) (hb : bins ≤ 2 ^ 31) :
    ∃ dx, invSpacingF rnd (.fin xmin, .fin xmax) bins = .ok (.fin dx) ∧ Within u 3 (1 / (xmax - xmin) * bins) dx := by
  have hu0 := L.nonneg
  have hP0 : 0 < P := lt_of_lt_of_le (by norm_num) hP
  have hb1 : (1 : K) ≤ bins := by exact_mod_cast hb0
  have hb2 : (bins : K) ≤ 2 ^ 31 := by exact_mod_cast hb
  have hPB : P < B := lt_of_lt_of_le (by nlinarith) hB
  have hw0 : xmax - xmin ≠ 0 := by
    intro h
    rw [h, abs_zero, zero_mul] at hw1
    linarith
  obtain ⟨w, w1, w2⟩ := L.sum xmax (-xmin) hxmax (L.neg _ hxmin) (by rw [← sub_eq_add_neg]; exact lt_of_le_of_lt hw2 hPB)
  rw [← sub_eq_add_neg] at w2
  have W : Within u 1 (xmax - xmin) w := within_round hu0 hu1 (within_refl _) w2
  have w0 : w ≠ 0 := within_ne hu1 hw0 W
  obtain ⟨b1, b2⟩ := within_half hu0 hu1 h5 (by norm_num) W
  have wpos : 0 < |w| := abs_pos.2 w0
  have e1 : |1 / w| * |w| = 1 := by rw [← abs_mul, one_div_mul_cancel w0, abs_one]
  have i0 : 0 < |1 / w| := abs_pos.2 (one_div_ne_zero w0)
  have r1 : |1 / w| ≤ 2 * P := by
    by_contra h
    push Not at h
    nlinarith
  have r2 : 1 ≤ |1 / w| * (2 * P) := by
    nlinarith
  have hEP : E ≤ |1 / w| := by
    by_contra h
    push Not at h
    have E0 : 0 < E := i0.trans h
    nlinarith [mul_le_mul_of_nonneg_right h.le (show 0 ≤ 2 * P by linarith), mul_pos E0 hP0]
  obtain ⟨i, i1, i2⟩ := L.near (1 / w) hEP (lt_of_le_of_lt r1 (lt_of_lt_of_le (by nlinarith) hB))
  have I : Within u 2 (1 / (xmax - xmin)) i := within_round hu0 hu1 (k := 1) (by simpa using within_div hu1 (within_refl 1) W) i2
  have e2 : |1 / (xmax - xmin)| * |xmax - xmin| = 1 := by rw [← abs_mul, one_div_mul_cancel hw0, abs_one]
  obtain ⟨c1, c2⟩ := within_half hu0 hu1 h5 (by norm_num) I
  have v0 : 0 < |1 / (xmax - xmin)| := abs_pos.2 (one_div_ne_zero hw0)
  have wpos' : 0 < |xmax - xmin| := abs_pos.2 hw0
  have s1 : |1 / (xmax - xmin)| ≤ P := by
    by_contra h
    push Not at h
    nlinarith
  have s2 : 1 ≤ |1 / (xmax - xmin)| * P := by nlinarith
  have habs : |i * bins| = |i| * bins := by rw [abs_mul, Nat.abs_cast]
  have i0' : 0 < |i| := by linarith
  have hEi : E ≤ |i * bins| := by
    rw [habs]
    by_contra h
    push Not at h
    have h' : |i| < E := lt_of_le_of_lt (le_mul_of_one_le_right i0'.le hb1) h
    have E0 : 0 < E := i0'.trans h'
    have g1 : |i| * P ≤ E * P := mul_le_mul_of_nonneg_right h'.le hP0.le
    have g2 : |1 / (xmax - xmin)| * P ≤ 2 * |i| * P := mul_le_mul_of_nonneg_right c1 hP0.le
    have g3 : 2 ^ 40 * (E * P) ≤ P * (E * P) := mul_le_mul_of_nonneg_right hP (mul_pos E0 hP0).le
    have g4 : P * (E * P) = E * P ^ 2 := by ring
    have g5 : 0 < E * P := mul_pos E0 hP0
    linarith
  have hBi : |i * bins| < B := by
    rw [habs]
    have : |i| * bins ≤ 2 * P * 2 ^ 31 := mul_le_mul (by linarith) hb2 (by linarith) (by linarith)
    refine lt_of_le_of_lt this (lt_of_lt_of_le ?_ hB)
    nlinarith
  obtain ⟨dx, d1, d2⟩ := L.near (i * bins) hEi hBi
  refine ⟨dx, ?_, within_round hu0 hu1 (k := 2) (by simpa using within_mul hu1 I (within_refl (bins : K))) d2⟩
  simp only [invSpacingF, Dbl.sub, Dbl.neg, Dbl.add, w1, Dbl.div, if_neg w0, i1, bind, Except.bind, Dbl.mul, d1]
  rfl

set_option maxHeartbeats 1000000 in
/-- Where a particle is put. -/
theorem position_limited (L : Limited rnd u E B) (hr : Rounding rnd) (hu1 : u < 1) (h5 : 1 / 2 ≤ (1 - u) ^ 5) {P : K} (hP : 2 ^ 40 ≤ P)
    (hB : P ^ 2 ≤ B) (hE1 : 0 < E) (hE2 : E < 1) {xmin xmax : K} (hxmin : rnd xmin = .fin xmin) (hw2 : |xmax - xmin| ≤ P)
    (hw0 : xmax - xmin ≠ 0) {bins : ℕ} (hb0 : 0 < bins) (hb : bins ≤ 2 ^ 31) {dx : K} (hdx : Within u 3 (1 / (xmax - xmin) * bins) dx)
    {d : K} (hd : rnd d = .fin d) {i j : ℕ} (hj : j ≤ bins) :
    (surelyIn ((1 - u) ^ 5) i j (place xmin xmax bins d) → 2 * E ≤ place xmin xmax bins d →
      between i j (computed rnd (.fin xmin) (.fin dx) (.fin d)) = true) ∧
    (between i j (computed rnd (.fin xmin) (.fin dx) (.fin d)) = true → maybeIn ((1 - u) ^ 5) i j (place xmin xmax bins d)) := by
  have hu0 := L.nonneg
  have hP0 : 0 < P := lt_of_lt_of_le (by norm_num) hP
  have hb1 : (1 : K) ≤ bins := by exact_mod_cast hb0
  have hb2 : (bins : K) ≤ 2 ^ 31 := by exact_mod_cast hb
  have hjb : (j : K) ≤ bins := by exact_mod_cast hj
  have hq1 : (1 - u) ^ 5 ≤ 1 := pow_le_one₀ (by linarith) (by linarith)
  have hPP : 2 * P ≤ P ^ 2 := by
    rw [sq]
    exact mul_le_mul_of_nonneg_right (le_trans (by norm_num) hP) hP0.le
  have hB1 : 2 * bins < B := lt_of_lt_of_le (by nlinarith) hB
  have ht : place xmin xmax bins d = (d - xmin) * (1 / (xmax - xmin) * bins) := by
    unfold place
    ring
  have e2 : |1 / (xmax - xmin)| * |xmax - xmin| = 1 := by rw [← abs_mul, one_div_mul_cancel hw0, abs_one]
  have v0 : 0 < |1 / (xmax - xmin)| := abs_pos.2 (one_div_ne_zero hw0)
  have s2 : 1 ≤ |1 / (xmax - xmin)| * P := by nlinarith
  have hf : (bins : K) ≤ |1 / (xmax - xmin) * bins| * P := by
    rw [abs_mul, Nat.abs_cast]
    nlinarith
  obtain ⟨x1, x2⟩ := within_half hu0 hu1 h5 (by norm_num) hdx
  have hfar : ∀ t : K, (bins : K) ≤ |t| → ¬ surelyIn ((1 - u) ^ 5) i j t := by
    rintro t h ⟨h1, -, h3⟩
    rw [abs_of_pos h1] at h
    have : (j : K) * (1 - u) ^ 5 ≤ j * 1 := mul_le_mul_of_nonneg_left hq1 (Nat.cast_nonneg _)
    linarith
  have hout : (bins : K) ≤ |place xmin xmax bins d| → between i j (computed rnd (.fin xmin) (.fin dx) (.fin d)) = false →
      (surelyIn ((1 - u) ^ 5) i j (place xmin xmax bins d) → 2 * E ≤ place xmin xmax bins d →
        between i j (computed rnd (.fin xmin) (.fin dx) (.fin d)) = true) ∧
      (between i j (computed rnd (.fin xmin) (.fin dx) (.fin d)) = true → maybeIn ((1 - u) ^ 5) i j (place xmin xmax bins d)) := by
    intro h1 h2
    refine ⟨fun h => absurd h (hfar _ h1), fun h => ?_⟩
    rw [h2] at h
    cases h
  have hc : computed rnd (.fin xmin) (.fin dx) (.fin d) = Dbl.mul rnd (rnd (d - xmin)) (.fin dx) := by
    simp only [computed, Dbl.sub, Dbl.neg, Dbl.add, sub_eq_add_neg]
  by_cases hA : |d - xmin| < B
  · obtain ⟨s, s1, s2'⟩ := L.sum d (-xmin) hd (L.neg _ hxmin) (by rw [← sub_eq_add_neg]; exact hA)
    rw [← sub_eq_add_neg] at s1 s2'
    have S : Within u 1 (d - xmin) s := within_round hu0 hu1 (within_refl _) s2'
    have SD : Within u 4 (place xmin xmax bins d) (s * dx) := by
      rw [ht]
      exact within_mul hu1 S hdx
    obtain ⟨y1, y2⟩ := within_half hu0 hu1 h5 (by norm_num) SD
    rw [s1] at hc
    simp only [Dbl.mul] at hc
    by_cases hBig : |s * dx| < B
    · by_cases hSmall : E ≤ |s * dx|
      · obtain ⟨y, y3, y4⟩ := L.near (s * dx) hSmall hBig
        have Y : Within u 5 (place xmin xmax bins d) y := within_round hu0 hu1 SD y4
        rw [hc, y3, between_fin_iff]
        obtain ⟨k1, k2⟩ := position_sandwich (i := i) (j := j) hu1 Y
        exact ⟨fun h _ => k1 h, k2⟩
      · push Not at hSmall
        obtain ⟨y, y3, y4, y5⟩ := L.small (s * dx) hSmall
        refine ⟨fun _ h => ?_, fun h => ?_⟩
        · exfalso
          rw [abs_of_pos (by linarith)] at y1
          linarith
        · rw [hc, y3, between_fin_iff] at h
          obtain ⟨h1, h2, h3⟩ := h
          have hpos := y5 h1
          obtain ⟨t, t1, t2, t3⟩ := SD
          have t0 : 0 < t := lt_of_lt_of_le (pow_pos (by linarith) 4) t1
          have hp : 0 < place xmin xmax bins d := by
            rw [t3] at hpos
            exact (pos_iff_pos_of_mul_pos hpos).2 t0
          rw [abs_of_pos h1] at y4
          have hi : i = 0 := by
            have : (i : K) < 1 := by linarith
            have : i < 1 := by exact_mod_cast this
            omega
          have hj1 : (1 : K) ≤ j := by
            have : (0 : K) < j := by linarith
            have : 0 < j := by exact_mod_cast this
            exact_mod_cast this
          refine ⟨hp, by rw [hi, Nat.cast_zero, zero_mul]; exact hp.le, ?_⟩
          -- the exact position is that small as well
          rw [abs_of_pos hpos] at hSmall
          have q4 : (1 - u) ^ 5 ≤ (1 - u) ^ 4 := pow_le_pow_of_le_one (by linarith) (by linarith) (by norm_num)
          calc place xmin xmax bins d * (1 - u) ^ 5 ≤ place xmin xmax bins d * t := mul_le_mul_of_nonneg_left (q4.trans t1) hp.le
            _ = s * dx := t3.symm
            _ < 1 := hSmall.trans hE2
            _ ≤ j := hj1
    · push Not at hBig
      refine hout (by linarith) ?_
      rw [hc]
      exact between_far hr hj hb (by linarith)
  · push Not at hA
    have hplace : (bins : K) ≤ |place xmin xmax bins d| := by
      rw [ht, abs_mul]
      have : P ≤ |d - xmin| := le_trans (by linarith) (hB.trans hA)
      nlinarith [abs_nonneg (1 / (xmax - xmin) * bins)]
    refine hout hplace ?_
    rw [hc]
    have hdx1 : (bins : K) ≤ 2 * |dx| * P := by nlinarith
    have dx0 : 0 < |dx| := by
      by_contra h
      push Not at h
      have : |dx| = 0 := le_antisymm h (abs_nonneg _)
      rw [this] at hdx1
      linarith
    have hbig : ∀ v : K, B ≤ |v| → (bins : K) ≤ |v * dx| := by
      intro v hv
      rw [abs_mul]
      have h1 : 2 * P ≤ |v| := hPP.trans (hB.trans hv)
      calc (bins : K) ≤ 2 * |dx| * P := hdx1
        _ = 2 * P * |dx| := by ring
        _ ≤ |v| * |dx| := mul_le_mul_of_nonneg_right h1 dx0.le
    have hinf : ∀ σ, between i j (Dbl.mul rnd (.inf σ) (.fin dx)) = false := by
      intro σ
      simp only [Dbl.mul]
      rw [if_neg (abs_pos.1 dx0)]
      exact between_inf _ _ _
    rcases le_total 0 (d - xmin) with h0 | h0
    · rw [abs_of_nonneg h0] at hA
      have h1 := hr.mono _ _ hA
      rw [L.large] at h1
      cases hv : rnd (d - xmin) with
      | nan => simp [Dbl.mul, between, Dbl.lt]
      | inf σ => exact hinf σ
      | fin v =>
        rw [hv] at h1
        simp only [Dbl.le, decide_eq_true_eq] at h1
        exact between_far hr hj hb (hbig v (h1.trans (le_abs_self v)))
    · rw [abs_of_nonpos h0] at hA
      have h1 := hr.mono (d - xmin) (-B) (by linarith)
      rw [L.neg _ L.large] at h1
      cases hv : rnd (d - xmin) with
      | nan => simp [Dbl.mul, between, Dbl.lt]
      | inf σ => exact hinf σ
      | fin v =>
        rw [hv] at h1
        simp only [Dbl.le, decide_eq_true_eq] at h1
        exact between_far hr hj hb (hbig v (by rw [← abs_neg]; exact le_trans (by linarith) (le_abs_self (-v))))

end

end Postpic.Histogram
