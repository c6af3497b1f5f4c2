import Mathlib.Tactic.LinearCombination
import Mathlib.Tactic.IntervalCases
import Mathlib.Algebra.BigOperators.Ring.Finset
import Verif.Lemmas.MapCoordinates
import Verif.Model.Spline
import Verif.Spec.Spline

/-!
# Lemmas: splines
-/

set_option autoImplicit false

namespace Postpic.Interp

open Postpic Postpic.Spec

noncomputable section

/-! ### B-splines -/

/-- The piece `j` of the B-spline of degree `n`. -/
def piece (n : ℕ) (j : ℤ) (t : ℝ) : ℝ := bspline n (t + j - ((n : ℝ) + 1) / 2)

theorem piece_succ (n : ℕ) (j : ℤ) (t : ℝ) :
    piece (n + 1) j t = ((t + j) * piece n j t + (n + 2 - t - j) * piece n (j - 1) t) / (n + 1) := by
  unfold piece
  rw [bspline]
  have e1 : t + (j : ℝ) - (((n + 1 : ℕ) : ℝ) + 1) / 2 + 1 / 2 = t + j - ((n : ℝ) + 1) / 2 := by push_cast; ring
  have e2 : t + (j : ℝ) - (((n + 1 : ℕ) : ℝ) + 1) / 2 - 1 / 2 = t + ((j - 1 : ℤ) : ℝ) - ((n : ℝ) + 1) / 2 := by push_cast; ring
  rw [e1, e2]
  congr 1
  · congr 1
    · congr 1; push_cast; ring
    · congr 1; push_cast; ring
  · push_cast; ring

theorem piece_zero {t : ℝ} (h0 : 0 ≤ t) (h1 : t < 1) (j : ℤ) : piece 0 j t = if j = 0 then 1 else 0 := by
  unfold piece
  rw [bspline]
  by_cases hj : j = 0
  · subst hj
    rw [if_pos rfl, if_pos]
    push_cast
    constructor <;> linarith
  · rw [if_neg hj, if_neg]
    rintro ⟨h2, h3⟩
    push_cast at h2 h3
    rcases lt_or_gt_of_ne hj with h | h
    · have : (j : ℝ) ≤ -1 := by exact_mod_cast (show j ≤ -1 by omega)
      linarith
    · have : (1 : ℝ) ≤ j := by exact_mod_cast (show 1 ≤ j by omega)
      linarith

theorem piece_outside {t : ℝ} (h0 : 0 ≤ t) (h1 : t < 1) (n : ℕ) (j : ℤ) (hj : j < 0 ∨ n < j) : piece n j t = 0 := by
  induction n generalizing j with
  | zero => rw [piece_zero h0 h1, if_neg (by push_cast at hj; omega)]
  | succ n ih =>
    rw [piece_succ, ih j (by push_cast at hj; omega), ih (j - 1) (by push_cast at hj; omega)]
    ring

/-- The weights are the pieces of the B-spline. -/
theorem weights_piece {t : ℝ} (h0 : 0 ≤ t) (h1 : t < 1) {order : ℕ} (ho : order ≤ 5) {k : ℕ} (hk : k ≤ order) :
    splineWeights order (if order % 2 = 1 then t else t - 1 / 2) k = piece order (order - k : ℤ) t := by
  have hz := piece_zero h0 h1
  interval_cases order <;> interval_cases k <;>
    simp [splineWeights, firstWeights, piece_succ, hz, List.range_succ] <;> ring

/-! ### Mirroring -/

theorem mirrored_of {n : ℕ} (hn : 2 ≤ n) {r : ℤ} (h0 : 0 ≤ r) (h1 : r < 2 * n - 2) :
    mirrored n r = if r < n then r.toNat else (2 * n - 2 - r).toNat := by
  unfold mirrored
  rw [if_neg (by omega)]
  simp only
  rw [Int.emod_eq_of_lt h0 h1]

theorem mirrored_add {n : ℕ} (j t : ℤ) : mirrored n (j + (2 * n - 2) * t) = mirrored n j := by
  unfold mirrored
  by_cases hn : n ≤ 1
  · rw [if_pos hn, if_pos hn]
  · rw [if_neg hn, if_neg hn]
    simp only [Int.add_mul_emod_self_left]

theorem mirrored_neg {n : ℕ} (j : ℤ) : mirrored n (-j) = mirrored n j := by
  by_cases hn : n ≤ 1
  · unfold mirrored
    rw [if_pos hn, if_pos hn]
  · have hp : (0 : ℤ) < 2 * n - 2 := by omega
    have e := Int.emod_add_mul_ediv j (2 * n - 2)
    set r := j % (2 * (n : ℤ) - 2) with hr
    set q := j / (2 * (n : ℤ) - 2) with hq
    have r0 : 0 ≤ r := Int.emod_nonneg _ hp.ne'
    have r1 : r < 2 * n - 2 := Int.emod_lt_of_pos _ hp
    have e1 : mirrored n j = mirrored n r := by rw [← e, mirrored_add]
    by_cases hr0 : r = 0
    · have : -j = 0 + (2 * n - 2) * (-q) := by rw [← e, hr0]; ring
      rw [this, mirrored_add, e1, hr0]
    · have : -j = (2 * n - 2 - r) + (2 * n - 2) * (-q - 1) := by rw [← e]; ring
      rw [this, mirrored_add, e1, mirrored_of (by omega) (by omega) (by omega), mirrored_of (by omega) r0 r1]
      by_cases h2 : r < n
      · rw [if_pos h2]
        by_cases h3 : 2 * (n : ℤ) - 2 - r < n
        · rw [if_pos h3]; omega
        · rw [if_neg h3]; omega
      · rw [if_neg h2, if_pos (by omega)]

theorem mirrored_self {n : ℕ} {i : ℕ} (hi : i < n) : mirrored n i = i := by
  by_cases hn : n ≤ 1
  · unfold mirrored
    rw [if_pos hn]
    omega
  · by_cases h1 : (i : ℤ) < 2 * n - 2
    · rw [mirrored_of (by omega) (by omega) h1, if_pos (by omega)]
      omega
    · have h2 : n = 2 ∧ i = 1 ∨ False := by omega
      omega

theorem mirrored_lt {n : ℕ} (hn : 0 < n) (j : ℤ) : mirrored n j < n := by
  unfold mirrored
  by_cases h : n ≤ 1
  · rw [if_pos h]; exact hn
  · rw [if_neg h]
    simp only
    have r0 : 0 ≤ j % (2 * (n : ℤ) - 2) := Int.emod_nonneg _ (by omega)
    have r1 : j % (2 * (n : ℤ) - 2) < 2 * n - 2 := Int.emod_lt_of_pos _ (by omega)
    by_cases h2 : j % (2 * (n : ℤ) - 2) < n
    · rw [if_pos h2]; omega
    · rw [if_neg h2]; omega

theorem mirrorIndex_eq (n : ℕ) (i : ℤ) : mirrorIndex n i = mirrored n i := by
  unfold mirrorIndex
  by_cases hn : n ≤ 1
  · unfold mirrored
    rw [if_pos hn, if_pos hn]
  · rw [if_neg hn]
    simp only
    have hp : (0 : ℤ) < 2 * n - 2 := by omega
    by_cases h0 : i < 0
    · rw [if_pos h0]
      have e := Int.emod_add_mul_ediv (-i) (2 * n - 2)
      set r := -i % (2 * (n : ℤ) - 2)
      set q := -i / (2 * (n : ℤ) - 2)
      have r0 : 0 ≤ r := Int.emod_nonneg _ hp.ne'
      have r1 : r < 2 * n - 2 := Int.emod_lt_of_pos _ hp
      have e1 : (2 * (n : ℤ) - 2) * q + i = -r := by linarith
      rw [e1, ← mirrored_neg i, ← e, mirrored_add, mirrored_of (by omega) r0 r1]
      by_cases h1 : -r ≤ 1 - n
      · rw [if_pos h1]
        by_cases h2 : r < n
        · rw [if_pos h2]; omega
        · rw [if_neg h2]; omega
      · rw [if_neg h1, if_pos (by omega)]; omega
    · rw [if_neg h0]
      by_cases h1 : (n : ℤ) ≤ i
      · rw [if_pos h1]
        have e := Int.emod_add_mul_ediv i (2 * n - 2)
        set r := i % (2 * (n : ℤ) - 2)
        set q := i / (2 * (n : ℤ) - 2)
        have r0 : 0 ≤ r := Int.emod_nonneg _ hp.ne'
        have r1 : r < 2 * n - 2 := Int.emod_lt_of_pos _ hp
        have e1 : i - (2 * (n : ℤ) - 2) * q = r := by linarith
        rw [e1, ← e, mirrored_add, mirrored_of (by omega) r0 r1]
        by_cases h2 : r < n
        · rw [if_pos h2, if_neg (by omega)]
        · rw [if_neg h2, if_pos (by omega)]
      · rw [if_neg h1]
        obtain ⟨m, rfl⟩ : ∃ m : ℕ, i = m := ⟨i.toNat, by omega⟩
        rw [mirrored_self (by omega)]
        simp

/-! ### The sum over the neighbours -/

/-- The position within a cell. -/
def cellPart (order : ℕ) (c : ℝ) : ℝ := if order % 2 = 1 then Int.fract c else Int.fract (c + 1 / 2)

theorem cellPart_bounds (order : ℕ) (c : ℝ) : 0 ≤ cellPart order c ∧ cellPart order c < 1 := by
  unfold cellPart
  split_ifs
  · exact ⟨Int.fract_nonneg _, Int.fract_lt_one _⟩
  · exact ⟨Int.fract_nonneg _, Int.fract_lt_one _⟩

theorem centre_part (order : ℕ) (c : ℝ) :
    c - (centre order c : ℝ) = if order % 2 = 1 then cellPart order c else cellPart order c - 1 / 2 := by
  unfold cellPart centre
  by_cases h : order % 2 = 1
  · simp only [if_pos h]; rfl
  · simp only [if_neg h]
    unfold Int.fract
    ring

theorem distance_piece (order : ℕ) (c : ℝ) (j : ℤ) :
    bspline order (c - j) = piece order (order - (j - (centre order c - (order / 2 : ℕ)))) (cellPart order c) := by
  unfold piece
  congr 1
  have h := centre_part order c
  have h2 : order = 2 * (order / 2) + order % 2 := (Nat.div_add_mod order 2).symm
  generalize hm : order / 2 = m at *
  have hc : ((order - (j - (centre order c - (m : ℤ))) : ℤ) : ℝ) = order - (j - (centre order c - (m : ℝ))) := by
    push_cast
    ring
  rw [hc]
  rcases Nat.mod_two_eq_zero_or_one order with h4 | h4
  · rw [if_neg (by omega)] at h
    have h3 : (order : ℝ) = 2 * (m : ℝ) := by exact_mod_cast (by omega : order = 2 * m)
    linarith
  · rw [if_pos h4] at h
    have h3 : (order : ℝ) = 2 * (m : ℝ) + 1 := by exact_mod_cast (by omega : order = 2 * m + 1)
    linarith

theorem list_range_sum (f : ℕ → ℝ) (n : ℕ) : ((List.range n).map f).sum = ∑ k ∈ Finset.range n, f k := by
  induction n with
  | zero => simp
  | succ n ih => rw [List.range_succ, List.map_append, List.sum_append, ih, Finset.sum_range_succ]; simp

theorem centre_floor (order : ℕ) (c : ℝ) : ⌊c⌋ ≤ centre order c ∧ centre order c ≤ ⌊c⌋ + 1 := by
  unfold centre
  split_ifs
  · omega
  · constructor
    · exact Int.floor_le_floor (by linarith)
    · rw [← Int.floor_add_one]
      exact Int.floor_le_floor (by linarith)

theorem neighbours_sum {order : ℕ} (ho : order ≤ 5) (n : ℕ) (c : ℝ) (F : ℕ → ℝ) :
    ((List.range (order + 1)).map fun k => splineWeights order (c - (centre order c : ℝ)) k *
      F (mirrorIndex n (centre order c - (order / 2 : ℕ) + k))).sum =
    ∑ j ∈ Finset.Icc (⌊c⌋ - 6) (⌊c⌋ + 6), bspline order (c - j) * F (mirrored n j) := by
  obtain ⟨h0, h1⟩ := cellPart_bounds order c
  obtain ⟨b0, b1⟩ := centre_floor order c
  rw [list_range_sum]
  have hinj : ∀ x ∈ Finset.range (order + 1), ∀ y ∈ Finset.range (order + 1),
      (centre order c - (order / 2 : ℕ) + (x : ℤ)) = centre order c - (order / 2 : ℕ) + (y : ℤ) → x = y := by
    intro x _ y _ h
    omega
  have hsub : (Finset.range (order + 1)).image (fun k : ℕ => centre order c - (order / 2 : ℕ) + (k : ℤ)) ⊆
      Finset.Icc (⌊c⌋ - 6) (⌊c⌋ + 6) := by
    intro j hj
    obtain ⟨k, hk, rfl⟩ := Finset.mem_image.mp hj
    rw [Finset.mem_range] at hk
    rw [Finset.mem_Icc]
    constructor <;> omega
  rw [← Finset.sum_subset hsub, Finset.sum_image hinj]
  · apply Finset.sum_congr rfl
    intro k hk
    rw [Finset.mem_range] at hk
    rw [mirrorIndex_eq, distance_piece, centre_part, weights_piece h0 h1 ho (by omega)]
    congr 2
    omega
  · intro j _ hj
    rw [distance_piece, piece_outside h0 h1, zero_mul]
    by_contra hcon
    apply hj
    rw [Finset.mem_image]
    refine ⟨(j - (centre order c - (order / 2 : ℕ))).toNat, ?_, ?_⟩
    · rw [Finset.mem_range]; omega
    · omega

/-- The interpolation is the spline with the given coefficients. -/
theorem stencil_spline {order : ℕ} (ho : order ≤ 5) {shape : List ℕ} {cs : List ℝ} (h : shape.length = cs.length)
    (g : List ℕ → ℝ) : stencil splineWeights order shape cs g = splineAt order shape g cs := by
  induction shape generalizing cs g with
  | nil =>
    cases cs with
    | nil => simp [stencil, splineAt]
    | cons c cs => simp at h
  | cons n shape ih =>
    cases cs with
    | nil => simp at h
    | cons c cs =>
      have hl : shape.length = cs.length := by simpa using h
      simp only [stencil, splineAt, ih hl]
      exact neighbours_sum ho n c fun m => splineAt order shape (fun t => g (m :: t)) cs

/-! ### The filter -/

/-- `z` and `1 / z` are the solutions of `z² - s z + 1 = 0`. -/
structure IsPole (z s : ℝ) : Prop where
  root : z * z - s * z + 1 = 0
  ne_one : z ≠ 1
  ne_neg : z ≠ -1

theorem IsPole.ne_zero {z s : ℝ} (h : IsPole z s) : z ≠ 0 := by
  rintro rfl
  have := h.root
  norm_num at this

theorem IsPole.sq_ne {z s : ℝ} (h : IsPole z s) : z * z - 1 ≠ 0 := by
  intro hz
  have : (z - 1) * (z + 1) = 0 := by linear_combination hz
  rcases mul_eq_zero.1 this with h1 | h1
  · exact h.ne_one (by linarith)
  · exact h.ne_neg (by linarith)

theorem IsPole.pow_ne {z s : ℝ} (h : IsPole z s) {k : ℕ} (hk : 0 < k) : 1 - z ^ k * z ^ k ≠ 0 := by
  intro hz
  have h1 : z ^ (2 * k) = 1 := by rw [two_mul, pow_add]; linarith
  rcases pow_eq_one_iff_cases.1 h1 with h2 | h2 | h2
  · omega
  · exact h.ne_one h2
  · exact h.ne_neg h2.1

theorem isPole_of {s : ℝ} (hs : 0 ≤ s ^ 2 / 4 - 1) (h2 : s ≠ 2) (h3 : s ≠ -2) : IsPole (√(s ^ 2 / 4 - 1) + s / 2) s := by
  have hq := Real.mul_self_sqrt hs
  set w := √(s ^ 2 / 4 - 1)
  have hr : (w + s / 2) * (w + s / 2) - s * (w + s / 2) + 1 = 0 := by linear_combination hq
  refine ⟨hr, ?_, ?_⟩
  · intro h
    rw [h] at hr
    apply h2
    linarith
  · intro h
    rw [h] at hr
    apply h3
    linarith

theorem causal_last (z : ℝ) (n : ℕ) (g : ℕ → ℝ) (N : ℕ) :
    causal z n g N = z ^ N * causal z n g 0 + ∑ j ∈ Finset.range N, z ^ j * g (N - j) := by
  induction N with
  | zero => simp
  | succ N ih =>
    rw [Finset.sum_range_succ']
    simp only [causal] at ih ⊢
    rw [ih, mul_add, Finset.mul_sum]
    have : ∀ j ∈ Finset.range N, z * (z ^ j * g (N - j)) = z ^ (j + 1) * g (N + 1 - (j + 1)) := by
      intro j _
      rw [Nat.add_sub_add_right]
      ring
    rw [Finset.sum_congr rfl this]
    simp
    ring

theorem causal_first {z s : ℝ} (h : IsPole z s) (m : ℕ) (g : ℕ → ℝ) :
    causal z (m + 2) g 0 = g 0 + ∑ i ∈ Finset.range m, z ^ (i + 1) * g (i + 1) + z ^ (m + 1) * causal z (m + 2) g (m + 1) := by
  have hne := h.pow_ne (Nat.succ_pos m)
  rw [causal_last z (m + 2) g (m + 1), Finset.sum_range_succ']
  show causalInit z (m + 2) g = g 0 + _ + z ^ (m + 1) * (z ^ (m + 1) * causalInit z (m + 2) g + _)
  have key : causalInit z (m + 2) g * (1 - z ^ (m + 1) * z ^ (m + 1)) = g 0 + z ^ (m + 1) * g (m + 1) +
      ∑ k ∈ Finset.range m, z ^ (k + 1) * (g (k + 1) + z ^ (m + 1) * g (m - k)) := by
    unfold causalInit
    rw [list_range_sum]
    simp only [Nat.add_sub_cancel, show m + 2 - 1 = m + 1 from rfl]
    rw [div_mul_cancel₀ _ hne]
  have e : ∑ k ∈ Finset.range m, z ^ (k + 1) * (g (k + 1) + z ^ (m + 1) * g (m - k)) =
      ∑ k ∈ Finset.range m, z ^ (k + 1) * g (k + 1) + z ^ (m + 1) * ∑ k ∈ Finset.range m, z ^ (k + 1) * g (m + 1 - (k + 1)) := by
    rw [Finset.mul_sum, ← Finset.sum_add_distrib]
    apply Finset.sum_congr rfl
    intro k _
    rw [Nat.add_sub_add_right]
    ring
  rw [e] at key
  simp only [pow_zero, one_mul, Nat.sub_zero]
  linarith

theorem polePass_step (m : ℕ) (g : ℕ → ℝ) (z : ℝ) {i : ℕ} (hi : i ≤ m) :
    polePass (m + 2) g z i = z * (polePass (m + 2) g z (i + 1) - causal z (m + 2) g i) := by
  unfold polePass
  have e : m + 2 - 1 - i = (m - i) + 1 := by omega
  have e' : m + 2 - 1 - (i + 1) = m - i := by omega
  rw [e, e']
  simp only [anticausal]
  congr 3
  omega

theorem polePass_last (m : ℕ) (g : ℕ → ℝ) (z : ℝ) :
    polePass (m + 2) g z (m + 1) = (z * causal z (m + 2) g m + causal z (m + 2) g (m + 1)) * z / (z * z - 1) := by
  unfold polePass
  simp [anticausal]

/-- The equation between neighbouring values. -/
theorem pole_inner {z s : ℝ} (h : IsPole z s) (m : ℕ) (g : ℕ → ℝ) {i : ℕ} (hi : i + 1 ≤ m) :
    polePass (m + 2) g z (i + 2) + polePass (m + 2) g z i - s * polePass (m + 2) g z (i + 1) = g (i + 1) := by
  have h1 := polePass_step m g z (show i ≤ m by omega)
  have h2 := polePass_step m g z hi
  have h3 : causal z (m + 2) g (i + 1) = g (i + 1) + z * causal z (m + 2) g i := rfl
  have hz := h.ne_zero
  have hr := h.root
  apply mul_left_cancel₀ hz
  linear_combination (-1) * h2 + z * h1 + z * h3 + polePass (m + 2) g z (i + 1) * hr

theorem pole_last {z s : ℝ} (h : IsPole z s) (m : ℕ) (g : ℕ → ℝ) :
    2 * polePass (m + 2) g z m - s * polePass (m + 2) g z (m + 1) = g (m + 1) := by
  have h1 := polePass_step m g z (le_refl m)
  have h2 := polePass_last m g z
  rw [eq_div_iff h.sq_ne] at h2
  have h3 : causal z (m + 2) g (m + 1) = g (m + 1) + z * causal z (m + 2) g m := rfl
  have hz := h.ne_zero
  have hr := h.root
  apply mul_left_cancel₀ hz
  linear_combination 2 * z * h1 + h2 + z * h3 + polePass (m + 2) g z (m + 1) * hr

theorem pole_back {z s : ℝ} (h : IsPole z s) (m : ℕ) (g : ℕ → ℝ) {k : ℕ} (hk : k ≤ m) :
    z * polePass (m + 2) g z (m - k) - polePass (m + 2) g z (m - k + 1) =
      z * (∑ j ∈ Finset.range k, z ^ j * g (m - k + 1 + j) + z ^ k * causal z (m + 2) g (m + 1)) := by
  induction k with
  | zero =>
    have h1 := polePass_step m g z (le_refl m)
    have h2 := polePass_last m g z
    rw [eq_div_iff h.sq_ne] at h2
    simp only [Nat.sub_zero, Finset.range_zero, Finset.sum_empty, pow_zero, one_mul, zero_add]
    linear_combination z * h1 + h2
  | succ k ih =>
    have ih := ih (by omega)
    obtain ⟨i, hi⟩ : ∃ i, m - (k + 1) = i := ⟨_, rfl⟩
    have hi2 : m - k = i + 1 := by omega
    rw [hi2] at ih
    rw [hi]
    have h1 := pole_inner h m g (i := i) (by omega)
    have hz := h.ne_zero
    have hr := h.root
    rw [Finset.sum_range_succ', pow_succ]
    have e : ∑ j ∈ Finset.range k, z ^ (j + 1) * g (i + 1 + (j + 1)) = z * ∑ j ∈ Finset.range k, z ^ j * g (i + 1 + 1 + j) := by
      rw [Finset.mul_sum]
      apply Finset.sum_congr rfl
      intro j _
      rw [show i + 1 + (j + 1) = i + 1 + 1 + j by ring]
      ring
    rw [e]
    simp only [pow_zero, one_mul, add_zero]
    linear_combination z * h1 + z * ih + (-polePass (m + 2) g z (i + 1)) * hr

theorem pole_first {z s : ℝ} (h : IsPole z s) (m : ℕ) (g : ℕ → ℝ) :
    2 * polePass (m + 2) g z 1 - s * polePass (m + 2) g z 0 = g 0 := by
  have h1 := polePass_step m g z (Nat.zero_le m)
  have h2 := pole_back h m g (le_refl m)
  have h3 := causal_first h m g
  have hz := h.ne_zero
  have hr := h.root
  rw [Nat.sub_self] at h2
  have e : ∑ i ∈ Finset.range m, z ^ (i + 1) * g (i + 1) = z * ∑ j ∈ Finset.range m, z ^ j * g (0 + 1 + j) := by
    rw [Finset.mul_sum]
    apply Finset.sum_congr rfl
    intro j _
    rw [show 0 + 1 + j = j + 1 by ring]
    ring
  rw [e, pow_succ] at h3
  simp only [zero_add] at h1 h2 h3
  apply mul_left_cancel₀ hz
  linear_combination (-1) * h1 - z * h2 + z * h3 + polePass (m + 2) g z 0 * hr

/-! ### The mirrored line -/

theorem mirror_induction {n : ℕ} (hn : 2 ≤ n) {P : ℤ → Prop} (hp : ∀ j t, P j → P (j + (2 * n - 2) * t)) (hs : ∀ j, P j → P (-j))
    (h : ∀ i : ℕ, i < n → P i) (j : ℤ) : P j := by
  have e := Int.emod_add_mul_ediv j (2 * n - 2)
  set r := j % (2 * (n : ℤ) - 2) with hr
  have r0 : 0 ≤ r := Int.emod_nonneg _ (by omega)
  have r1 : r < 2 * n - 2 := Int.emod_lt_of_pos _ (by omega)
  rw [← e]
  apply hp
  by_cases h1 : r < n
  · have := h r.toNat (by omega)
    rwa [Int.toNat_of_nonneg r0] at this
  · have := hp _ 1 (hs _ (h (2 * n - 2 - r).toNat (by omega)))
    rw [Int.toNat_of_nonneg (by omega)] at this
    convert this using 1
    ring

theorem mirrored_last {n : ℕ} (hn : 2 ≤ n) : mirrored n n = n - 2 := by
  have : (n : ℤ) = -((n : ℤ) - 2) + (2 * n - 2) * 1 := by ring
  have h2 : mirrored n ((n : ℤ) - 2) = n - 2 := by
    have := mirrored_self (n := n) (i := n - 2) (by omega)
    rwa [show ((n - 2 : ℕ) : ℤ) = (n : ℤ) - 2 by omega] at this
  calc mirrored n n = mirrored n (-((n : ℤ) - 2) + (2 * n - 2) * 1) := by rw [← this]
    _ = n - 2 := by rw [mirrored_add, mirrored_neg, h2]

theorem mirrored_one {n : ℕ} (hn : 2 ≤ n) : mirrored n (-1) = 1 := by
  rw [mirrored_neg]
  exact mirrored_self (i := 1) (by omega)

theorem pole_line {z s : ℝ} (h : IsPole z s) {n : ℕ} (hn : 2 ≤ n) (g : ℕ → ℝ) (j : ℤ) :
    polePass n g z (mirrored n (j + 1)) + polePass n g z (mirrored n (j - 1)) - s * polePass n g z (mirrored n j) =
      g (mirrored n j) := by
  refine mirror_induction (P := fun j => polePass n g z (mirrored n (j + 1)) + polePass n g z (mirrored n (j - 1)) -
    s * polePass n g z (mirrored n j) = g (mirrored n j)) hn ?_ ?_ ?_ j
  · intro j t hj
    rw [show j + (2 * n - 2) * t + 1 = (j + 1) + (2 * n - 2) * t by ring,
      show j + (2 * n - 2) * t - 1 = (j - 1) + (2 * n - 2) * t by ring, mirrored_add, mirrored_add, mirrored_add]
    exact hj
  · intro j hj
    rw [show -j + 1 = -(j - 1) by ring, show -j - 1 = -(j + 1) by ring, mirrored_neg, mirrored_neg, mirrored_neg, add_comm]
    exact hj
  · intro i hi
    obtain ⟨m, rfl⟩ : ∃ m, n = m + 2 := ⟨n - 2, by omega⟩
    rw [mirrored_self hi]
    rcases Nat.eq_zero_or_pos i with rfl | hpos
    · have := pole_first h m g
      rw [show ((0 : ℕ) : ℤ) - 1 = -1 by simp, mirrored_one hn, show ((0 : ℕ) : ℤ) + 1 = ((1 : ℕ) : ℤ) by simp,
        mirrored_self (by omega)]
      linarith
    · obtain ⟨k, rfl⟩ : ∃ k, i = k + 1 := ⟨i - 1, by omega⟩
      rw [show ((k + 1 : ℕ) : ℤ) - 1 = (k : ℤ) by push_cast; ring, mirrored_self (by omega)]
      by_cases hl : k + 1 = m + 1
      · have := pole_last h m g
        obtain rfl : k = m := by omega
        have e := mirrored_last hn
        rw [show ((k + 1 : ℕ) : ℤ) + 1 = ((k + 2 : ℕ) : ℤ) by push_cast; ring, e, Nat.add_sub_cancel]
        linarith
      · have := pole_inner h m g (i := k) (by omega)
        rw [show ((k + 1 : ℕ) : ℤ) + 1 = ((k + 2 : ℕ) : ℤ) by push_cast; ring, mirrored_self (by omega)]
        exact this

theorem pole_gain {z s : ℝ} (h : IsPole z s) : (1 - z) * (1 - 1 / z) = 2 - s := by
  have hz := h.ne_zero
  have hr := h.root
  field_simp
  linear_combination (-1) * hr

theorem pole2 : IsPole (√8 - 3) (-6) := by
  have := isPole_of (s := -6) (by norm_num) (by norm_num) (by norm_num)
  convert this using 1
  norm_num
  ring

theorem pole3 : IsPole (√3 - 2) (-4) := by
  have := isPole_of (s := -4) (by norm_num) (by norm_num) (by norm_num)
  convert this using 1
  norm_num
  ring

theorem sqrt_prod {a b c : ℝ} (hb : 0 ≤ b) (h : a = b ^ 2 * c) : √a = b * √c := by
  rw [h, Real.sqrt_mul (sq_nonneg b), Real.sqrt_sq hb]

theorem sqrt304 : 17 < √304 ∧ √304 < 18 := by
  constructor
  · exact Real.lt_sqrt_of_sq_lt (by norm_num)
  · rw [Real.sqrt_lt' (by norm_num)]; norm_num

theorem pole4a : IsPole (√(664 - √438976) + √304 - 19) (2 * √304 - 38) := by
  have hq : √304 * √304 = 304 := Real.mul_self_sqrt (by norm_num)
  obtain ⟨h1, h2⟩ := sqrt304
  have e : (2 * √304 - 38) ^ 2 / 4 - 1 = 664 - √438976 := by
    rw [sqrt_prod (a := 438976) (b := 38) (c := 304) (by norm_num) (by norm_num)]
    linear_combination hq
  have := isPole_of (s := 2 * √304 - 38) (by nlinarith) (by linarith) (by intro h; nlinarith)
  rw [e] at this
  convert this using 1
  ring

theorem pole4b : IsPole (√(664 + √438976) - √304 - 19) (-(2 * √304) - 38) := by
  have hq : √304 * √304 = 304 := Real.mul_self_sqrt (by norm_num)
  obtain ⟨h1, h2⟩ := sqrt304
  have e : (-(2 * √304) - 38) ^ 2 / 4 - 1 = 664 + √438976 := by
    rw [sqrt_prod (a := 438976) (b := 38) (c := 304) (by norm_num) (by norm_num)]
    linear_combination hq
  have := isPole_of (s := -(2 * √304) - 38) (by nlinarith) (by linarith) (by intro h; linarith)
  rw [e] at this
  convert this using 1
  ring

theorem sqrt105 : 5 < √(105 / 4) ∧ √(105 / 4) < 11 / 2 := by
  constructor
  · exact Real.lt_sqrt_of_sq_lt (by norm_num)
  · rw [Real.sqrt_lt' (by norm_num)]; norm_num

theorem pole5a : IsPole (√(135 / 2 - √(17745 / 4)) + √(105 / 4) - 13 / 2) (2 * √(105 / 4) - 13) := by
  have hq : √(105 / 4) * √(105 / 4) = 105 / 4 := Real.mul_self_sqrt (by norm_num)
  obtain ⟨h1, h2⟩ := sqrt105
  have e : (2 * √(105 / 4) - 13) ^ 2 / 4 - 1 = 135 / 2 - √(17745 / 4) := by
    rw [sqrt_prod (a := 17745 / 4) (b := 13) (c := 105 / 4) (by norm_num) (by norm_num)]
    linear_combination hq
  have := isPole_of (s := 2 * √(105 / 4) - 13) (by nlinarith) (by linarith) (by intro h; linarith)
  rw [e] at this
  convert this using 1
  ring

theorem pole5b : IsPole (√(135 / 2 + √(17745 / 4)) - √(105 / 4) - 13 / 2) (-(2 * √(105 / 4)) - 13) := by
  have hq : √(105 / 4) * √(105 / 4) = 105 / 4 := Real.mul_self_sqrt (by norm_num)
  obtain ⟨h1, h2⟩ := sqrt105
  have e : (-(2 * √(105 / 4)) - 13) ^ 2 / 4 - 1 = 135 / 2 + √(17745 / 4) := by
    rw [sqrt_prod (a := 17745 / 4) (b := 13) (c := 105 / 4) (by norm_num) (by norm_num)]
    linear_combination hq
  have := isPole_of (s := -(2 * √(105 / 4)) - 13) (by nlinarith) (by linarith) (by intro h; linarith)
  rw [e] at this
  convert this using 1
  ring

/-- The values of the B-splines at the points around the centre, and the equation which the coefficients fulfil. -/
def samples : ℕ → ℕ → ℝ
  | 2, 0 => 6 / 8
  | 2, 1 => 1 / 8
  | 3, 0 => 4 / 6
  | 3, 1 => 1 / 6
  | 4, 0 => 230 / 384
  | 4, 1 => 76 / 384
  | 4, 2 => 1 / 384
  | 5, 0 => 66 / 120
  | 5, 1 => 26 / 120
  | 5, 2 => 1 / 120
  | 0, 0 => 1
  | 1, 0 => 1
  | _, _ => 0

/-- The spline with the coefficients `c` at a point of the array. -/
def atPoint (order n : ℕ) (c : ℕ → ℝ) (j : ℤ) : ℝ :=
  samples order 0 * c (mirrored n j) + samples order 1 * (c (mirrored n (j + 1)) + c (mirrored n (j - 1))) +
    samples order 2 * (c (mirrored n (j + 2)) + c (mirrored n (j - 2)))

theorem two_poles {z w s t : ℝ} (hz : IsPole z s) (hw : IsPole w t) {n : ℕ} (hn : 2 ≤ n) (g : ℕ → ℝ) (j : ℤ) (c : ℕ → ℝ)
    (hc : c = polePass n (polePass n g z) w) :
    (c (mirrored n (j + 2)) + c (mirrored n (j - 2))) - (s + t) * (c (mirrored n (j + 1)) + c (mirrored n (j - 1))) +
      (2 + s * t) * c (mirrored n j) = g (mirrored n j) := by
  have h0 := pole_line hz hn g j
  have h1 := pole_line hw hn (polePass n g z) (j + 1)
  have h2 := pole_line hw hn (polePass n g z) (j - 1)
  have h3 := pole_line hw hn (polePass n g z) j
  rw [← hc] at h1 h2 h3
  rw [show j + 1 + 1 = j + 2 by ring, show j + 1 - 1 = j by ring] at h1
  rw [show j - 1 + 1 = j by ring, show j - 1 - 1 = j - 2 by ring] at h2
  linear_combination h0 + h1 + h2 - s * h3

theorem filter_line {order : ℕ} (ho : order ≤ 5) {n : ℕ} (hn : 2 ≤ n) (g : ℕ → ℝ) (j : ℤ) :
    atPoint order n (filter1d order n g) j = g (mirrored n j) := by
  have hn1 : ¬ n ≤ 1 := by omega
  unfold atPoint filter1d
  simp only [if_neg hn1]
  have : order = 0 ∨ order = 1 ∨ order = 2 ∨ order = 3 ∨ order = 4 ∨ order = 5 := by omega
  rcases this with rfl | rfl | rfl | rfl | rfl | rfl
  · simp [samples, poles]
  · simp [samples, poles]
  · have h := pole_line pole2 hn (fun i => 8 * g i) j
    simp only [poles, List.map_cons, List.map_nil, List.prod_cons, List.prod_nil, List.foldl_cons, List.foldl_nil, pole_gain pole2,
      samples]
    rw [show (2 - (-6 : ℝ)) * 1 = 8 by norm_num]
    linarith
  · have h := pole_line pole3 hn (fun i => 6 * g i) j
    simp only [poles, List.map_cons, List.map_nil, List.prod_cons, List.prod_nil, List.foldl_cons, List.foldl_nil, pole_gain pole3,
      samples]
    rw [show (2 - (-4 : ℝ)) * 1 = 6 by norm_num]
    linarith
  · have hq : √304 * √304 = 304 := Real.mul_self_sqrt (by norm_num)
    have h := two_poles pole4a pole4b hn (fun i => 384 * g i) j _ rfl
    simp only [poles, List.map_cons, List.map_nil, List.prod_cons, List.prod_nil, List.foldl_cons, List.foldl_nil, pole_gain pole4a,
      pole_gain pole4b, samples]
    rw [show (2 - (2 * √304 - 38)) * ((2 - (-(2 * √304) - 38)) * 1) = 384 by linear_combination (-4) * hq]
    rw [show 2 * √304 - 38 + (-(2 * √304) - 38) = -76 by ring,
      show 2 + (2 * √304 - 38) * (-(2 * √304) - 38) = 230 by linear_combination (-4) * hq] at h
    linarith
  · have hq : √(105 / 4) * √(105 / 4) = 105 / 4 := Real.mul_self_sqrt (by norm_num)
    have h := two_poles pole5a pole5b hn (fun i => 120 * g i) j _ rfl
    simp only [poles, List.map_cons, List.map_nil, List.prod_cons, List.prod_nil, List.foldl_cons, List.foldl_nil, pole_gain pole5a,
      pole_gain pole5b, samples]
    rw [show (2 - (2 * √(105 / 4) - 13)) * ((2 - (-(2 * √(105 / 4)) - 13)) * 1) = 120 by linear_combination (-4) * hq]
    rw [show 2 * √(105 / 4) - 13 + (-(2 * √(105 / 4)) - 13) = -26 by ring,
      show 2 + (2 * √(105 / 4) - 13) * (-(2 * √(105 / 4)) - 13) = 66 by linear_combination (-4) * hq] at h
    linarith

/-- The weights at the points of the array. -/
theorem weights_point {order : ℕ} (ho : order ≤ 5) (n i : ℕ) (c : ℕ → ℝ) :
    ((List.range (order + 1)).map fun k => splineWeights order ((i : ℝ) - (centre order (i : ℝ) : ℝ)) k *
      c (mirrorIndex n (centre order (i : ℝ) - (order / 2 : ℕ) + k))).sum = atPoint order n c i := by
  have hc : centre order (i : ℝ) = i := by
    unfold centre
    split_ifs
    · simp
    · rw [Int.floor_eq_iff]
      constructor <;> push_cast <;> linarith
  rw [hc, list_range_sum]
  simp only [Int.cast_natCast, sub_self, mirrorIndex_eq]
  unfold atPoint
  have : order = 0 ∨ order = 1 ∨ order = 2 ∨ order = 3 ∨ order = 4 ∨ order = 5 := by omega
  rcases this with rfl | rfl | rfl | rfl | rfl | rfl
  · simp [Finset.sum_range_succ, splineWeights, samples, firstWeights]
  · simp [Finset.sum_range_succ, splineWeights, samples, firstWeights]
  all_goals
    simp [Finset.sum_range_succ, splineWeights, samples, firstWeights, List.range_succ]
    norm_num
    ring_nf

end

end Postpic.Interp
