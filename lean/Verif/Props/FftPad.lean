import Verif.Lemmas.FftPad
import Verif.Props.FieldResolution

/-!
# Sizes for fast Fourier transforms
-/

set_option autoImplicit false
set_option linter.unusedSectionVars false

namespace Postpic.Props

open Postpic Postpic.Axes Postpic.Fields Postpic.Spec

/-! ## C33: the next good size -/

/-- C33 for any factors, : see
`fftw_pad_partial`. At least one factor has to be different from 11 and 13. -/
theorem fftw_pad_factors_partial (lg : ℕ → ℕ → ℕ → ℕ) (hlg : LogOk lg) (factors : List ℕ)
    (h2 : ∀ f ∈ factors, 2 ≤ f) (hne : (factors.erase 11).erase 13 ≠ []) (max : ℕ) (hmax : 1 ≤ max)
    (calls : List ℕ) :
    ∃ p, FftwPad.new lg max factors = .ok p ∧ ∀ n,
      (∃ s, ((p.after lg calls).call lg n).1 = .ok s ∧
        IsLeast {x | GoodFor factors x ∧ n ≤ x} s) ∨
        (((p.after lg calls).call lg n).1 = .error .indexError ∧
          ∀ x, GoodFor factors x → n ≤ x → n + 10000 < x) := by
  obtain ⟨p, h, hp, -⟩ := FftwPad.new_ok hlg h2 hne hmax
  refine ⟨p, h, fun n => ?_⟩
  rcases ((hp.after hlg h2 hne calls).call hlg h2 hne n).2.2 with ⟨s, g1, g2, -⟩ | ⟨g1, g2⟩
  · exact Or.inl ⟨s, g1, g2⟩
  · exact Or.inr ⟨g1, fun x hx hn => (g2 x hx hn).1⟩

/-- C33: after any series of calls, whatever their outcome, a call with `n` returns the smallest
good size that is not smaller than `n`, or fails with an `IndexError`; it fails only if there is no
good size among `n, n+1, ..., n+10000`. In particular the value does not depend on the history.
Partial: "never fails" does not hold, see `fftw_pad_violated` and `fftw_pad_small_partial`. -/
theorem fftw_pad_partial (lg : ℕ → ℕ → ℕ → ℕ) (hlg : LogOk lg) (max : ℕ) (hmax : 1 ≤ max)
    (calls : List ℕ) :
    ∃ p, FftwPad.new lg max = .ok p ∧ ∀ n,
      (∃ s, ((p.after lg calls).call lg n).1 = .ok s ∧ IsLeast {x | GoodSize x ∧ n ≤ x} s) ∨
        (((p.after lg calls).call lg n).1 = .error .indexError ∧
          ∀ x, GoodSize x → n ≤ x → n + 10000 < x) := by
  have h2 : ∀ f ∈ ([2, 3, 5, 7, 11, 13] : List ℕ), 2 ≤ f := by decide
  have hne : (([2, 3, 5, 7, 11, 13] : List ℕ).erase 11).erase 13 ≠ [] := by decide
  obtain ⟨p, h, h3⟩ := fftw_pad_factors_partial lg hlg _ h2 hne max hmax calls
  exact ⟨p, h, by simpa only [goodFor_default] using h3⟩

example := fftw_pad_partial _ exactLog_ok 1 (by decide) [100, 5, 2083726, 7]

example := fftw_pad_factors_partial _ exactLog_ok [2, 3, 11] (by decide) (by decide) 50 (by decide)
  [100, 5]

/-- Good sizes that are at most 10001 apart, given by their exponents. -/
def goodChain : List (ℕ × ℕ × ℕ × ℕ × ℕ × ℕ) :=
  [(4, 0, 4, 0, 0, 0), (5, 0, 4, 0, 0, 0), (4, 1, 4, 0, 0, 0), (6, 0, 4, 0, 0, 0), (4, 0, 5, 0,
   0, 0), (5, 1, 4, 0, 0, 0), (4, 0, 4, 1, 0, 0), (7, 0, 4, 0, 0, 0), (4, 2, 4, 0, 0, 0), (5, 0,
   5, 0, 0, 0), (4, 0, 4, 0, 1, 0), (6, 1, 4, 0, 0, 0), (4, 0, 4, 0, 0, 1), (5, 0, 4, 1, 0, 0),
   (4, 1, 5, 0, 0, 0), (8, 0, 4, 0, 0, 0), (0, 2, 1, 3, 1, 0), (9, 3, 0, 0, 0, 1), (2, 6, 1, 0,
   0, 1), (0, 7, 0, 1, 0, 1), (7, 0, 3, 0, 0, 1), (7, 5, 0, 1, 0, 0), (2, 0, 4, 1, 0, 1), (0, 6,
   2, 0, 0, 1), (7, 0, 2, 1, 1, 0), (11, 0, 3, 0, 0, 0), (2, 6, 0, 1, 0, 1), (4, 3, 0, 2, 0, 1),
   (6, 4, 1, 0, 1, 0), (15, 2, 0, 0, 0, 0), (10, 3, 0, 0, 1, 0), (8, 0, 2, 2, 0, 0), (3, 1, 2,
   2, 1, 0), (2, 5, 0, 3, 0, 0), (3, 0, 3, 3, 0, 0), (0, 1, 0, 6, 0, 0), (7, 4, 1, 1, 0, 0),
   (12, 0, 0, 1, 0, 1), (0, 7, 2, 1, 0, 0), (6, 0, 3, 2, 0, 0), (13, 0, 0, 2, 0, 0), (14, 0, 2,
   0, 0, 0), (9, 2, 0, 1, 0, 1), (1, 0, 4, 3, 0, 0), (1, 3, 4, 0, 0, 1), (9, 0, 3, 1, 0, 0), (9,
   4, 0, 0, 1, 0), (10, 0, 1, 1, 0, 1), (1, 2, 0, 4, 1, 0), (2, 2, 2, 2, 1, 0), (3, 2, 4, 0, 1,
   0), (1, 1, 1, 5, 0, 0), (6, 6, 0, 0, 1, 0), (6, 0, 4, 0, 0, 1), (4, 3, 2, 2, 0, 0), (9, 4, 0,
   0, 0, 1), (6, 0, 2, 3, 0, 0), (0, 0, 3, 3, 0, 1), (3, 4, 3, 1, 0, 0), (4, 1, 1, 4, 0, 0), (3,
   2, 4, 0, 0, 1), (4, 3, 3, 0, 1, 0), (5, 0, 1, 3, 1, 0), (2, 0, 5, 2, 0, 0), (9, 5, 1, 0, 0,
   0), (3, 5, 2, 0, 0, 1), (4, 6, 1, 0, 1, 0), (4, 0, 5, 0, 0, 1), (5, 1, 4, 0, 1, 0), (1, 1, 2,
   3, 0, 1), (9, 3, 0, 2, 0, 0), (4, 0, 3, 3, 0, 0), (0, 4, 2, 3, 0, 0), (9, 0, 3, 0, 1, 0), (5,
   0, 1, 3, 0, 1), (1, 4, 0, 3, 0, 1), (1, 2, 5, 0, 0, 1), (4, 3, 1, 3, 0, 0), (0, 7, 0, 3, 0,
   0), (0, 5, 5, 0, 0, 0), (6, 0, 1, 4, 0, 0), (2, 4, 0, 4, 0, 0), (2, 2, 5, 1, 0, 0), (1, 0, 4,
   2, 0, 1), (14, 0, 0, 2, 0, 0), (2, 0, 6, 0, 0, 1), (0, 8, 3, 0, 0, 0), (11, 4, 1, 0, 0, 0),
   (10, 2, 0, 1, 0, 1), (7, 3, 1, 2, 0, 0), (6, 1, 0, 3, 0, 1), (2, 9, 0, 0, 1, 0), (3, 0, 6, 1,
   0, 0), (15, 3, 0, 0, 0, 0), (0, 6, 2, 2, 0, 0), (14, 0, 1, 0, 1, 0), (4, 0, 4, 1, 0, 1), (1,
   1, 5, 2, 0, 0), (1, 6, 0, 2, 0, 1), (2, 1, 7, 0, 0, 0), (12, 1, 0, 1, 1, 0), (2, 1, 3, 2, 0,
   1), (0, 9, 0, 2, 0, 0), (0, 4, 1, 4, 0, 0), (5, 0, 4, 2, 0, 0), (4, 2, 4, 0, 1, 0), (6, 0, 6,
   0, 0, 0), (2, 1, 1, 5, 0, 0), (8, 4, 0, 2, 0, 0), (13, 0, 3, 0, 0, 0), (14, 2, 0, 1, 0, 0),
   (7, 0, 4, 0, 0, 1), (4, 1, 5, 1, 0, 0), (0, 2, 0, 6, 0, 0), (14, 0, 1, 0, 0, 1), (0, 0, 5, 3,
   0, 0), (15, 1, 0, 0, 1, 0), (7, 5, 1, 1, 0, 0), (7, 0, 2, 3, 0, 0), (13, 3, 1, 0, 0, 0), (1,
   0, 3, 3, 0, 1), (2, 2, 0, 4, 0, 1), (2, 1, 2, 3, 1, 0), (8, 0, 0, 3, 0, 1), (0, 8, 2, 1, 0,
   0), (0, 3, 3, 3, 0, 0), (1, 5, 0, 4, 0, 0), (1, 0, 1, 6, 0, 0), (7, 3, 0, 3, 0, 0), (0, 1, 4,
   2, 0, 1), (13, 1, 0, 2, 0, 0), (7, 6, 0, 0, 0, 1), (7, 1, 1, 2, 0, 1), (7, 0, 3, 1, 1, 0),
   (8, 2, 0, 2, 1, 0), (0, 6, 1, 3, 0, 0), (5, 2, 4, 1, 0, 0), (4, 1, 0, 4, 1, 0), (1, 6, 3, 1,
   0, 0), (5, 2, 0, 3, 0, 1), (0, 0, 0, 6, 1, 0), (5, 0, 5, 0, 0, 1), (1, 5, 1, 2, 1, 0), (8, 1,
   1, 3, 0, 0), (14, 4, 0, 0, 0, 0), (2, 5, 3, 0, 1, 0), (4, 0, 1, 5, 0, 0), (13, 1, 1, 0, 1,
   0), (0, 4, 0, 5, 0, 0), (9, 5, 0, 0, 1, 0), (0, 2, 5, 2, 0, 0), (4, 2, 3, 1, 1, 0), (0, 7, 0,
   2, 0, 1), (6, 0, 5, 1, 0, 0), (10, 0, 3, 0, 1, 0), (2, 4, 4, 1, 0, 0), (6, 0, 1, 3, 0, 1),
   (13, 0, 2, 1, 0, 0), (2, 8, 1, 0, 1, 0), (9, 4, 1, 1, 0, 0), (4, 6, 3, 0, 0, 0), (8, 2, 0, 2,
   0, 1), (0, 10, 2, 0, 0, 0), (3, 3, 4, 0, 1, 0), (11, 6, 0, 0, 0, 0), (0, 0, 4, 4, 0, 0), (4,
   0, 2, 3, 1, 0), (1, 5, 5, 0, 0, 0), (0, 4, 1, 3, 1, 0), (7, 0, 1, 4, 0, 0), (2, 2, 3, 3, 0,
   0), (6, 2, 1, 2, 1, 0), (1, 0, 2, 4, 0, 1), (8, 0, 3, 2, 0, 0), (12, 0, 1, 1, 1, 0), (2, 1,
   1, 4, 1, 0), (0, 13, 0, 0, 0, 0), (3, 6, 2, 0, 1, 0), (5, 1, 0, 5, 0, 0), (14, 2, 0, 0, 1,
   0), (9, 0, 1, 2, 0, 1), (0, 1, 7, 1, 0, 0), (4, 1, 5, 0, 1, 0), (12, 4, 1, 0, 0, 0), (2, 5,
   1, 3, 0, 0), (0, 1, 3, 3, 0, 1), (2, 0, 2, 5, 0, 0), (6, 0, 0, 4, 1, 0), (1, 2, 2, 3, 1, 0),
   (1, 1, 5, 1, 0, 1), (3, 0, 4, 3, 0, 0), (7, 0, 2, 2, 1, 0), (2, 2, 4, 1, 1, 0), (10, 5, 0, 1,
   0, 0), (0, 6, 0, 4, 0, 0), (8, 0, 4, 0, 1, 0), (16, 3, 0, 0, 0, 0), (6, 4, 0, 3, 0, 0), (1,
   6, 2, 2, 0, 0), (11, 0, 3, 1, 0, 0), (1, 1, 3, 4, 0, 0), (12, 2, 0, 2, 0, 0), (2, 3, 0, 5, 0,
   0), (11, 4, 0, 0, 1, 0), (6, 2, 1, 2, 0, 1), (8, 1, 0, 4, 0, 0), (3, 3, 2, 3, 0, 0), (2, 6,
   0, 2, 0, 1), (9, 6, 1, 0, 0, 0), (3, 1, 7, 0, 0, 0), (4, 0, 0, 6, 0, 0), (13, 1, 0, 1, 1, 0),
   (3, 2, 0, 4, 1, 0), (3, 1, 3, 2, 0, 1), (5, 0, 2, 4, 0, 0), (0, 2, 4, 3, 0, 0), (11, 3, 1, 1,
   0, 0), (1, 4, 1, 4, 0, 0), (0, 0, 9, 0, 0, 0), (6, 0, 4, 2, 0, 0), (1, 2, 6, 1, 0, 0), (7, 2,
   1, 3, 0, 0), (2, 4, 3, 2, 0, 0), (13, 5, 0, 0, 0, 0), (3, 6, 0, 3, 0, 0), (13, 0, 1, 2, 0,
   0), (3, 1, 1, 5, 0, 0), (3, 4, 5, 0, 0, 0), (9, 4, 0, 2, 0, 0), (4, 6, 2, 1, 0, 0), (14, 0,
   3, 0, 0, 0), (4, 1, 3, 3, 0, 0), (0, 10, 1, 1, 0, 0), (5, 3, 0, 4, 0, 0), (0, 5, 2, 3, 0, 0)]

/-- The number with the given exponents. -/
def sizeOf (q : ℕ × ℕ × ℕ × ℕ × ℕ × ℕ) : ℕ :=
  2 ^ q.1 * 3 ^ q.2.1 * 5 ^ q.2.2.1 * 7 ^ q.2.2.2.1 * 11 ^ q.2.2.2.2.1 * 13 ^ q.2.2.2.2.2

/-- Consecutive elements, beginning with `a`, are at most 10001 apart. -/
def covers : ℕ → List ℕ → Bool
  | _, [] => true
  | a, b :: l => decide (b ≤ a + 10001) && covers b l

theorem covers_find {n : ℕ} : ∀ {l : List ℕ} {a : ℕ}, covers a l = true → a < n →
    (∃ x ∈ l, n ≤ x) → ∃ x ∈ l, n ≤ x ∧ x ≤ n + 10000 := by
  intro l
  induction l with
  | nil => rintro a - - ⟨x, hx, -⟩; simp at hx
  | cons b l ih =>
    intro a hc ha hex
    simp only [covers, Bool.and_eq_true, decide_eq_true_eq] at hc
    by_cases hb : n ≤ b
    · exact ⟨b, by simp, hb, by omega⟩
    · obtain ⟨x, hx, hn⟩ := hex
      rcases List.mem_cons.1 hx with rfl | hx
      · omega
      · obtain ⟨y, hy, h1⟩ := ih hc.2 (by omega) ⟨x, hx, hn⟩
        exact ⟨y, by simp [hy], h1⟩

/-- C33: up to 2083725 a call never fails, after any history, and returns the smallest good size
that is not smaller. Partial: 2083725 is the largest bound for which this is true. -/
theorem fftw_pad_small_partial (lg : ℕ → ℕ → ℕ → ℕ) (hlg : LogOk lg) (max : ℕ) (hmax : 1 ≤ max)
    (calls : List ℕ) :
    ∃ p, FftwPad.new lg max = .ok p ∧ ∀ n ≤ 2083725,
      ∃ s, ((p.after lg calls).call lg n).1 = .ok s ∧ IsLeast {x | GoodSize x ∧ n ≤ x} s := by
  obtain ⟨p, hp, h⟩ := fftw_pad_partial lg hlg max hmax calls
  refine ⟨p, hp, fun n hn => ?_⟩
  rcases h n with h | ⟨-, h⟩
  · exact h
  · exfalso
    have h1 : covers 0 (goodChain.map sizeOf) = true := by decide +kernel
    have h2 : 2083725 ∈ goodChain.map sizeOf := by decide +kernel
    have h3 : ∀ q ∈ goodChain, q.2.2.2.2.1 + q.2.2.2.2.2 ≤ 1 := by decide +kernel
    by_cases h0 : n = 0
    · subst h0
      have := h 1 ⟨0, 0, 0, 0, 0, 0, by decide, by decide⟩ (by omega)
      omega
    · obtain ⟨x, hx, hnx, hxn⟩ := covers_find h1 (Nat.pos_of_ne_zero h0) ⟨_, h2, hn⟩
      obtain ⟨q, hq, rfl⟩ := List.mem_map.1 hx
      have := h (sizeOf q) ⟨q.1, q.2.1, q.2.2.1, q.2.2.2.1, q.2.2.2.2.1, q.2.2.2.2.2, h3 q hq, rfl⟩
        hnx
      omega

example := fftw_pad_small_partial _ exactLog_ok 1 (by decide) [100, 5, 2083726, 7]

/-- There is no good size between 2083726 and 2095631. -/
theorem no_good_upto {x : ℕ} (h : GoodSize x) (h1 : 2083726 ≤ x) : 2095632 ≤ x := by
  by_contra hc
  obtain ⟨a, b, c, d, e, f, hef, rfl⟩ := h
  have bound : ∀ {q k r : ℕ}, 2 ^ a * 3 ^ b * 5 ^ c * 7 ^ d * 11 ^ e * 13 ^ f = q ^ k * r →
      1 < q → ∀ m, 2095632 ≤ q ^ m → k < m := by
    intro q k r hx hq m hm
    by_contra hk
    have hle : q ^ m ≤ q ^ k := Nat.pow_le_pow_right (by omega) (by omega)
    have hr : r ≠ 0 := by
      rintro rfl
      rw [Nat.mul_zero] at hx
      have : 0 < 2 ^ a * 3 ^ b * 5 ^ c * 7 ^ d * 11 ^ e * 13 ^ f := by positivity
      omega
    have : q ^ k ≤ q ^ k * r := Nat.le_mul_of_pos_right _ (Nat.pos_of_ne_zero hr)
    omega
  have ha := bound (q := 2) (k := a) (r := 3 ^ b * 5 ^ c * 7 ^ d * 11 ^ e * 13 ^ f) (by ring)
    (by decide) 21 (by decide)
  have hb := bound (q := 3) (k := b) (r := 2 ^ a * 5 ^ c * 7 ^ d * 11 ^ e * 13 ^ f) (by ring)
    (by decide) 14 (by decide)
  have hc' := bound (q := 5) (k := c) (r := 2 ^ a * 3 ^ b * 7 ^ d * 11 ^ e * 13 ^ f) (by ring)
    (by decide) 10 (by decide)
  have hd := bound (q := 7) (k := d) (r := 2 ^ a * 3 ^ b * 5 ^ c * 11 ^ e * 13 ^ f) (by ring)
    (by decide) 8 (by decide)
  have table : ∀ a < 21, ∀ b < 14, ∀ c < 10, ∀ d < 8, ∀ m ∈ [1, 11, 13],
      2 ^ a * 3 ^ b * 5 ^ c * 7 ^ d * m < 2083726 ∨ 2095632 ≤ 2 ^ a * 3 ^ b * 5 ^ c * 7 ^ d * m := by
    decide +kernel
  have hm : 11 ^ e * 13 ^ f ∈ [1, 11, 13] := by
    rcases (by omega : (e = 0 ∧ f = 0) ∨ (e = 1 ∧ f = 0) ∨ (e = 0 ∧ f = 1)) with
      ⟨rfl, rfl⟩ | ⟨rfl, rfl⟩ | ⟨rfl, rfl⟩ <;> decide
  have := table a ha b hb c hc' d hd _ hm
  rw [← mul_assoc] at this
  omega

/-- C33 fails for large sizes: a new object called with 2083726 raises an `IndexError`, because the
next good size is 2095632 and the table only extends to 2093726. After a call with 2090000 the same
call succeeds, so the outcome depends on the history. -/
theorem fftw_pad_violated (lg : ℕ → ℕ → ℕ → ℕ) (hlg : LogOk lg) :
    ∃ p, FftwPad.new lg = .ok p ∧ (p.call lg 2083726).1 = .error .indexError ∧
      ((p.after lg [2090000]).call lg 2083726).1 = .ok 2095632 := by
  have h2 : ∀ f ∈ ([2, 3, 5, 7, 11, 13] : List ℕ), 2 ≤ f := by decide
  have hne : (([2, 3, 5, 7, 11, 13] : List ℕ).erase 11).erase 13 ≠ [] := by decide
  have good : GoodFor [2, 3, 5, 7, 11, 13] 2095632 :=
    goodFor_default.2 ⟨4, 5, 0, 2, 1, 0, by decide, by decide⟩
  obtain ⟨p, h, hp, hmax⟩ := FftwPad.new_ok hlg h2 hne (le_refl 1)
  refine ⟨p, h, ?_, ?_⟩
  · rcases (hp.call hlg h2 hne 2083726).2.2 with ⟨s, g1, g2, g3⟩ | ⟨g1, g2⟩
    · have := no_good_upto (goodFor_default.1 g2.1.1) g2.1.2
      omega
    · exact g1
  · obtain ⟨k1, k2, -⟩ := hp.call hlg h2 hne 2090000
    replace k2 := k2 (by omega)
    show (((p.call lg 2090000).2).call lg 2083726).1 = _
    rcases (k1.call hlg h2 hne 2083726).2.2 with ⟨s, g1, g2, g3⟩ | ⟨g1, g2⟩
    · have e1 : s ≤ 2095632 := g2.2 ⟨good, by omega⟩
      have e2 := no_good_upto (goodFor_default.1 g2.1.1) g2.1.2
      rw [g1, le_antisymm e1 e2]
    · have := (g2 _ good (by omega)).2
      omega

/-- C33: `fft_padsize_power2(n)` is the smallest power of two that is larger than `n`. A size that
is already a power of two is doubled. -/
theorem padsize_power2 (n : ℕ) : IsLeast {x | (∃ k, x = 2 ^ k) ∧ n < x} (fftPadsizePower2 n) := by
  unfold fftPadsizePower2
  rw [Nat.one_shiftLeft]
  refine ⟨⟨⟨_, rfl⟩, Nat.lt_size_self n⟩, ?_⟩
  rintro x ⟨⟨k, rfl⟩, h⟩
  exact Nat.pow_le_pow_right (by decide) (Nat.size_le.2 h)

example : fftPadsizePower2 8 = 16 ∧ fftPadsizePower2 9 = 16 ∧ fftPadsizePower2 0 = 1 := by
  decide +kernel

section
variable {K V : Type} [_root_.Field K] [LinearOrder K] [IsStrictOrderedRing K] [FloorRing K]

/-- C33: `fft_autopad` makes every selected dimension exactly as long as `fft_padsize` says, leaves
the others alone, keeps every sample at its coordinates and fills the rest with the padding value.
`t` is the function computed by `fft_padsize`. Partial: evenly spaced increasing axes. -/
theorem fft_autopad_partial (spl : Splines K) (hspl : ExactOnEven spl) (f : Field K V)
    (hf : f.Sound) (hne : f.shape ≠ []) (axes : List ℤ)
    (hax : ∀ a ∈ axes, ∃ d, pyIdx f.shape.length a = some d)
    (padsize : ℕ → Res ℕ) (t : ℕ → ℕ) (ht : ∀ l ∈ f.shape, padsize l = .ok (t l) ∧ l ≤ t l)
    (heven : ∀ ax ∈ f.axes, ∃ e h, EvenAxis ax e h ∧ 0 < h) (c : V) :
    ∃ (r : Field K V) (off : List ℕ), f.fftAutopad spl (some axes) padsize c = .ok r ∧
      r.name = f.name ∧ r.unit = f.unit ∧ r.ats = f.ats ∧ off.length = f.shape.length ∧
      r.axes.length = f.axes.length ∧
      (∀ (d : ℕ) (ax : Axis K) (o : ℕ), f.axes[d]? = some ax → off[d]? = some o →
        (∃ ax', r.axes[d]? = some ax' ∧ ax'.name = ax.name ∧ ax'.unit = ax.unit ∧
          (∀ i < ax.len, ax'.grid[o + i]? = ax.grid[i]?) ∧ r.shape[d]? = some ax'.len) ∧
        o + ax.len ≤ r.shape.getD d 0 ∧
        ((∃ a ∈ axes, pyIdx f.shape.length a = some d) → r.shape[d]? = some (t ax.len)) ∧
        (¬ (∃ a ∈ axes, pyIdx f.shape.length a = some d) →
          r.shape[d]? = some ax.len ∧ o = 0)) ∧
      (∀ j : List ℕ, InBounds f.shape j →
        r.matrix.at' (List.zipWith (· + ·) off j) = f.matrix.at' j) ∧
      (∀ idx : List ℕ, idx.length = f.shape.length →
        (∃ (d i n o : ℕ), idx[d]? = some i ∧ off[d]? = some o ∧ f.shape[d]? = some n ∧
          (i < o ∨ o + n ≤ i)) →
        r.matrix.at' idx = c) := by
  classical
  have hl := ok_axes_length hf.ok
  have hdims : f.dims.toNat = f.shape.length := by rw [dims_sound hf]; simp
  obtain ⟨w, w1, w2, w3⟩ := autopadWidths_spec ht axes (List.replicate f.dims.toNat (0, 0))
    (by simpa using hdims) hax
  rw [List.length_replicate, hdims] at w2
  -- start and spacing of the axes, widths
  let eh : List (K × K) := f.axes.pmap (fun ax h => (Classical.choose (heven ax h),
    Classical.choose (Classical.choose_spec (heven ax h)))) fun _ h => h
  let p : List (ℕ × ℕ) := (List.range f.shape.length).map fun d =>
    if ∃ a ∈ axes, pyIdx f.shape.length a = some d then
      halves (f.shape.getD d 0) (t (f.shape.getD d 0)) else (0, 0)
  have hpl : p.length = f.shape.length := by simp [p]
  have hp : ∀ (d : ℕ) (ax : Axis K), f.axes[d]? = some ax → p[d]? = some
      (if ∃ a ∈ axes, pyIdx f.shape.length a = some d then halves ax.len (t ax.len) else (0, 0)) := by
    intro d ax hd
    have hs : f.shape[d]? = some ax.len := by
      rw [← hf.ok.lengths, List.getElem?_map, hd]; rfl
    have hdl := (List.getElem?_eq_some_iff.1 hs).1
    simp only [p]
    rw [List.getElem?_map, List.getElem?_range hdl, Option.map_some, List.getD_eq_getElem?_getD, hs]
    rfl
  have hwd : ∀ (d : ℕ) (ax : Axis K), f.axes[d]? = some ax → w[d]? = some
      (if ∃ a ∈ axes, pyIdx f.shape.length a = some d then
        (((halves ax.len (t ax.len)).1 : ℤ), ((halves ax.len (t ax.len)).2 : ℤ)) else (0, 0)) := by
    intro d ax hd
    have hs : f.shape[d]? = some ax.len := by
      rw [← hf.ok.lengths, List.getElem?_map, hd]; rfl
    have hdl := (List.getElem?_eq_some_iff.1 hs).1
    have hrep : (List.replicate f.dims.toNat ((0, 0) : ℤ × ℤ))[d]? = some (0, 0) := by
      rw [List.getElem?_replicate, if_pos (by omega)]
    rw [w3 d ax.len hs, hrep]
    by_cases hex : ∃ a ∈ axes, pyIdx f.shape.length a = some d
    · rw [if_pos hex, if_pos hex]
    · rw [if_neg hex, if_neg hex]
  obtain ⟨r, h1, h2, h3, h4, h5, h6, h7, h8⟩ := pad_keeps_samples_partial spl hspl f hf hne
    (w.map fun q => (.cells q.1, .cells q.2)) p eh (by simp [w2]) hpl (by simp [eh, hl]) (by
      intro d ax wd pd x g1 g2 g3 g4
      have hdl := (List.getElem?_eq_some_iff.1 g1).1
      have hx : EvenAxis ax x.1 x.2 ∧ 0 < x.2 := by
        simp only [eh] at g4
        rw [List.getElem?_pmap] at g4
        obtain ⟨hd', g1'⟩ := List.getElem?_eq_some_iff.1 g1
        rw [Option.pmap_eq_some_iff] at g4
        obtain ⟨ax2, hm, g5, rfl⟩ := g4
        rw [g1, Option.some.injEq] at g5
        subst g5
        exact Classical.choose_spec (Classical.choose_spec (heven ax (List.mem_of_getElem? g1)))
      refine ⟨hx.1, hx.2, ?_⟩
      rw [List.getElem?_map, hwd d ax g1, Option.map_some, Option.some.injEq] at g2
      rw [hp d ax g1, Option.some.injEq] at g3
      subst g2 g3
      split_ifs <;> exact ⟨rfl, rfl⟩) c
  refine ⟨r, p.map (·.1), ?_, h2, h3, h4, by simp [hpl], h5, ?_, ?_, ?_⟩
  · unfold Field.fftAutopad
    simp only [Option.getD_some]
    rw [w1]
    exact h1
  · intro d ax o hd ho
    have hs : f.shape[d]? = some ax.len := by
      rw [← hf.ok.lengths, List.getElem?_map, hd]; rfl
    have hdl := (List.getElem?_eq_some_iff.1 hs).1
    rw [List.getElem?_map, hp d ax hd, Option.map_some, Option.some.injEq] at ho
    have hx : eh[d]? = some (eh[d]'(by simp [eh]; omega)) := List.getElem?_eq_getElem _
    obtain ⟨ax', g1, -, g3, g4, g5, g6, g7⟩ := h6 d ax _ _ hd (hp d ax hd) hx
    have hle := (ht ax.len (List.mem_of_getElem? hs)).2
    have hsum := halves_sum hle
    rw [← g6] at g5
    rw [List.getD_eq_getElem?_getD, g5, Option.getD_some]
    refine ⟨⟨ax', g1, g3, g4, ?_, rfl⟩, ?_, ?_, ?_⟩
    · rw [← ho]
      exact g7
    · rw [← ho]
      omega
    · intro hex
      rw [if_pos hex] at g6
      rw [g6, hsum]
    · intro hex
      rw [if_neg hex] at g6 ho
      rw [g6, ← ho]
      simp
  · intro j hj
    refine h7 _ j hj (by simp [hpl, hj.1]) ?_
    intro d k q hk hq
    rw [List.getElem?_zipWith, List.getElem?_map, hq, hk]
    rfl
  · rintro idx hidx ⟨d, i, n, o, g1, g2, g3, g4⟩
    rw [List.getElem?_map] at g2
    obtain ⟨q, hq, rfl⟩ := Option.map_eq_some_iff.1 g2
    exact h8 idx hidx ⟨d, i, n, q, g1, hq, g3, g4⟩

end

/-- The hypotheses of `fft_autopad_partial` hold for `field43`, its first dimension and powers of
two. -/
example := fft_autopad_partial midSplines midSplines_exact field43 field43_sound (by decide) [-2]
  (fun a ha => ⟨0, by rw [List.mem_singleton.1 ha]; decide⟩) (fun n => .ok (fftPadsizePower2 n)) fftPadsizePower2
  (fun l _ => ⟨rfl, (padsize_power2 l).1.2.le⟩)
  (by
    have h1 := uniform_even 0 1 4 (by decide)
    have h2 := uniform_even 0 2 3 (by decide)
    norm_num at h1 h2
    intro ax hax
    simp only [field43, List.mem_cons, List.not_mem_nil, or_false] at hax
    rcases hax with rfl | rfl
    · exact ⟨0, 1, h1, by norm_num⟩
    · exact ⟨0, 2, h2, by norm_num⟩) 7

example : ((field43.fftAutopad midSplines (some [-2]) (fun n => .ok (fftPadsizePower2 n)) 7).map
    fun r => (r.shape, r.axes.map (·.extent))) = .ok ([8, 3], [(-2, 6), (0, 6)]) := by
  decide +kernel

end Postpic.Props
