import Verif.Lemmas.Within
import Verif.Lemmas.StatisticsFloat
import Verif.Spec.CalculusFloat

/-!
# Lemmas about errors relative to a magnitude
-/

set_option autoImplicit false
set_option linter.unusedSectionVars false

namespace Postpic.Spec

open Postpic Postpic.Histogram Postpic.Statistics

variable {K : Type} [Field K] [LinearOrder K] [IsStrictOrderedRing K] [FloorRing K] {rnd : K → Dbl K} {u : K}

/-- `y` is `e` after `k` roundings of numbers whose absolute values add up to `m`. -/
def Near (u : K) (k : ℕ) (e m y : K) : Prop := |e| ≤ m ∧ |y - e| * (1 - u) ^ k ≤ (1 - (1 - u) ^ k) * m

theorem near_refl (x : K) : Near u 0 x |x| x := ⟨le_refl _, by simp⟩

theorem pow_facts (hu0 : 0 ≤ u) (hu1 : u < 1) (k : ℕ) : 0 < (1 - u) ^ k ∧ (1 - u) ^ k ≤ 1 :=
  ⟨pow_pos (by linarith) k, pow_le_one₀ (by linarith) (by linarith)⟩

theorem near_bound (hu0 : 0 ≤ u) (hu1 : u < 1) {k : ℕ} {e m y : K} (h : Near u k e m y) : |y| * (1 - u) ^ k ≤ m := by
  obtain ⟨h1, h2⟩ := h
  obtain ⟨w0, w1⟩ := pow_facts hu0 hu1 k
  generalize (1 - u) ^ k = w at *
  have h3 : |y| ≤ |y - e| + |e| := by simpa using abs_add_le (y - e) e
  nlinarith [mul_le_mul_of_nonneg_right h3 w0.le, mul_le_mul_of_nonneg_right h1 w0.le]

theorem near_mono (hu0 : 0 ≤ u) (hu1 : u < 1) {k l : ℕ} (hkl : k ≤ l) {e m y : K} (h : Near u k e m y) : Near u l e m y := by
  obtain ⟨h1, h2⟩ := h
  refine ⟨h1, ?_⟩
  have hm : 0 ≤ m := (abs_nonneg e).trans h1
  obtain ⟨j, rfl⟩ := Nat.exists_eq_add_of_le hkl
  obtain ⟨w0, w1⟩ := pow_facts hu0 hu1 k
  obtain ⟨v0, v1⟩ := pow_facts hu0 hu1 j
  rw [pow_add]
  generalize (1 - u) ^ k = w at *
  generalize (1 - u) ^ j = v at *
  have h3 := mul_le_mul_of_nonneg_right h2 v0.le
  have h4 : 0 ≤ (1 - v) * m := mul_nonneg (by linarith) hm
  nlinarith

theorem near_round (hu0 : 0 ≤ u) (hu1 : u < 1) {k : ℕ} {e m y z : K} (h : Near u k e m y) (hz : |z - y| ≤ u * |y|) :
    Near u (k + 1) e m z := by
  have hb := near_bound hu0 hu1 h
  obtain ⟨h1, h2⟩ := h
  refine ⟨h1, ?_⟩
  have hm : 0 ≤ m := (abs_nonneg e).trans h1
  obtain ⟨w0, w1⟩ := pow_facts hu0 hu1 k
  rw [pow_succ]
  generalize (1 - u) ^ k = w at *
  have h3 : |z - e| ≤ |z - y| + |y - e| := by simpa using abs_add_le (z - y) (y - e)
  have h4 : |z - e| * w ≤ u * m + (1 - w) * m := by
    calc |z - e| * w ≤ (u * |y| + |y - e|) * w := mul_le_mul_of_nonneg_right (by linarith) w0.le
      _ = u * (|y| * w) + |y - e| * w := by ring
      _ ≤ u * m + (1 - w) * m := add_le_add (mul_le_mul_of_nonneg_left hb hu0) h2
  calc |z - e| * (w * (1 - u)) = |z - e| * w * (1 - u) := by ring
    _ ≤ (u * m + (1 - w) * m) * (1 - u) := mul_le_mul_of_nonneg_right h4 (by linarith)
    _ = (1 - w * (1 - u)) * m - u * u * m := by ring
    _ ≤ (1 - w * (1 - u)) * m := by have := mul_nonneg (mul_nonneg hu0 hu0) hm; linarith

theorem near_add {k : ℕ} (hu0 : 0 ≤ u) (hu1 : u < 1) {e m y e' m' y' : K} (h : Near u k e m y) (h' : Near u k e' m' y') :
    Near u k (e + e') (m + m') (y + y') := by
  obtain ⟨w0, -⟩ := pow_facts hu0 hu1 k
  refine ⟨(abs_add_le _ _).trans (add_le_add h.1 h'.1), ?_⟩
  have h3 : |y + y' - (e + e')| ≤ |y - e| + |y' - e'| := by
    rw [show y + y' - (e + e') = (y - e) + (y' - e') by ring]
    exact abs_add_le _ _
  calc |y + y' - (e + e')| * (1 - u) ^ k ≤ (|y - e| + |y' - e'|) * (1 - u) ^ k := mul_le_mul_of_nonneg_right h3 w0.le
    _ = |y - e| * (1 - u) ^ k + |y' - e'| * (1 - u) ^ k := by ring
    _ ≤ (1 - (1 - u) ^ k) * m + (1 - (1 - u) ^ k) * m' := add_le_add h.2 h'.2
    _ = _ := by ring

theorem near_neg {k : ℕ} {e m y : K} (h : Near u k e m y) : Near u k (-e) m (-y) := by
  refine ⟨by rw [abs_neg]; exact h.1, ?_⟩
  rw [show -y - -e = -(y - e) by ring, abs_neg]
  exact h.2

theorem near_mul {k l : ℕ} (hu0 : 0 ≤ u) (hu1 : u < 1) {e m y e' m' y' : K} (h : Near u k e m y) (h' : Near u l e' m' y') :
    Near u (k + l) (e * e') (m * m') (y * y') := by
  have hb := near_bound hu0 hu1 h'
  obtain ⟨h1, h2⟩ := h
  obtain ⟨g1, g2⟩ := h'
  obtain ⟨w0, w1⟩ := pow_facts hu0 hu1 k
  obtain ⟨v0, v1⟩ := pow_facts hu0 hu1 l
  have hm : 0 ≤ m := (abs_nonneg e).trans h1
  refine ⟨by rw [abs_mul]; exact mul_le_mul h1 g1 (abs_nonneg _) hm, ?_⟩
  rw [pow_add]
  generalize (1 - u) ^ k = w at *
  generalize (1 - u) ^ l = v at *
  have h3 : |y * y' - e * e'| ≤ |y - e| * |y'| + |e| * |y' - e'| := by
    rw [show y * y' - e * e' = (y - e) * y' + e * (y' - e') by ring, ← abs_mul, ← abs_mul]
    exact abs_add_le _ _
  have a1 : |y - e| * w * (|y'| * v) ≤ (1 - w) * m * m' :=
    mul_le_mul h2 hb (mul_nonneg (abs_nonneg _) v0.le) (mul_nonneg (by linarith) hm)
  have a2 : |e| * w * (|y' - e'| * v) ≤ m * w * ((1 - v) * m') :=
    mul_le_mul (mul_le_mul_of_nonneg_right h1 w0.le) g2 (mul_nonneg (abs_nonneg _) v0.le) (mul_nonneg hm w0.le)
  calc |y * y' - e * e'| * (w * v) ≤ (|y - e| * |y'| + |e| * |y' - e'|) * (w * v) :=
        mul_le_mul_of_nonneg_right h3 (mul_nonneg w0.le v0.le)
    _ = |y - e| * w * (|y'| * v) + |e| * w * (|y' - e'| * v) := by ring
    _ ≤ (1 - w) * m * m' + m * w * ((1 - v) * m') := add_le_add a1 a2
    _ = (1 - w * v) * (m * m') := by ring

/-- Relative errors. -/
theorem near_of_within {k : ℕ} (hu0 : 0 ≤ u) (hu1 : u < 1) {x y : K} (h : Within u k x y) : Near u k x |x| y := by
  obtain ⟨t, h1, h2, rfl⟩ := h
  obtain ⟨w0, w1⟩ := pow_facts hu0 hu1 k
  refine ⟨le_refl _, ?_⟩
  generalize (1 - u) ^ k = w at *
  rw [show x * t - x = (t - 1) * x by ring, abs_mul]
  have h3 : |t - 1| * w ≤ 1 - w := by
    rcases abs_cases (t - 1) with ⟨h, _⟩ | ⟨h, _⟩ <;> rw [h] <;> nlinarith
  nlinarith [mul_le_mul_of_nonneg_right h3 (abs_nonneg x)]

/-- The error. -/
theorem near_error (hu0 : 0 ≤ u) {k : ℕ} (hk : k * u ≤ 1 / 2) {e m y : K} (h : Near u k e m y) : |y - e| ≤ 2 * k * u * m := by
  obtain ⟨h1, h2⟩ := h
  have hm : 0 ≤ m := (abs_nonneg e).trans h1
  by_cases hk0 : k = 0
  · subst hk0
    simpa using h2
  have hk1 : (1 : K) ≤ k := by exact_mod_cast Nat.one_le_iff_ne_zero.2 hk0
  have hb : 1 - k * u ≤ (1 - u) ^ k := by
    have := one_add_mul_le_pow (show (-2 : K) ≤ -u by nlinarith) k
    rw [← sub_eq_add_neg] at this
    linarith
  generalize (1 - u) ^ k = w at *
  have h3 : |y - e| * (1 - k * u) ≤ k * u * m := by
    calc |y - e| * (1 - k * u) ≤ |y - e| * w := mul_le_mul_of_nonneg_left hb (abs_nonneg _)
      _ ≤ (1 - w) * m := h2
      _ ≤ k * u * m := mul_le_mul_of_nonneg_right (by linarith) hm
  nlinarith [mul_le_mul_of_nonneg_left hk (abs_nonneg (y - e))]

/-- A list of computed numbers. -/
def NearAll (u : K) (k : ℕ) (es ms : List K) (ys : List (Dbl K)) : Prop :=
  es.length = ys.length ∧ ms.length = ys.length ∧
  ∀ i, i < ys.length → ∃ y, ys[i]? = some (.fin y) ∧ Near u k (es.getD i 0) (ms.getD i 0) y

theorem nearAll_sumF (A : Accurate rnd u) (hu1 : u < 1) {k : ℕ} {es ms : List K} {ys : List (Dbl K)} (h : NearAll u k es ms ys) (t : SumTree)
    (ht : ∀ i ∈ t.leaves, i < ys.length) :
    ∃ y, sumF rnd ys t = .fin y ∧ Near u (k + t.depth) ((t.leaves.map fun i => es.getD i 0).sum) ((t.leaves.map fun i => ms.getD i 0).sum) y := by
  have hu0 := A.nonneg
  induction t with
  | empty => exact ⟨0, rfl, by simp [SumTree.leaves], by
      obtain ⟨w0, w1⟩ := pow_facts hu0 hu1 (k + SumTree.empty.depth)
      simp [SumTree.leaves]⟩
  | leaf i =>
    obtain ⟨y, y1, y2⟩ := h.2.2 i (ht i (by simp [SumTree.leaves]))
    refine ⟨y, by simp [sumF, List.getD, y1], ?_⟩
    simpa [SumTree.leaves, SumTree.depth] using y2
  | node l r ihl ihr =>
    obtain ⟨y, y1, y2⟩ := ihl fun i hi => ht i (by simp [SumTree.leaves, hi])
    obtain ⟨z, z1, z2⟩ := ihr fun i hi => ht i (by simp [SumTree.leaves, hi])
    obtain ⟨s, s1, s2⟩ := A.near (y + z)
    refine ⟨s, by rw [sumF, y1, z1]; exact s1, ?_⟩
    simp only [SumTree.leaves, List.map_append, List.sum_append, SumTree.depth]
    rw [show k + (max l.depth r.depth + 1) = (k + max l.depth r.depth) + 1 by ring]
    exact near_round hu0 hu1 (near_add hu0 hu1 (near_mono hu0 hu1 (by omega) y2) (near_mono hu0 hu1 (by omega) z2)) s2

theorem leaves_sum {t : SumTree} {es : List K} (h : Adds t es.length) : (t.leaves.map fun i => es.getD i 0).sum = es.sum := by
  have := (leaves_perm es h).sum_eq
  simpa using this

theorem nearAll_add (A : Accurate rnd u) (hu1 : u < 1) {add : List (Dbl K) → Dbl K} {n d : ℕ} (S : Summation rnd add n d) {k : ℕ}
    {es ms : List K} {ys : List (Dbl K)} (h : NearAll u k es ms ys) (hn : ys.length ≤ n) :
    ∃ y, add ys = .fin y ∧ Near u (k + d) es.sum ms.sum y := by
  obtain ⟨t, t1, t2, t3⟩ := S ys hn
  obtain ⟨y, y1, y2⟩ := nearAll_sumF A hu1 h t (fun i hi => by simpa using t1.subset hi)
  rw [leaves_sum (h.1 ▸ t1), leaves_sum (h.2.1 ▸ t1)] at y2
  exact ⟨y, by rw [t3, y1], near_mono A.nonneg hu1 (by omega) y2⟩

end Postpic.Spec
