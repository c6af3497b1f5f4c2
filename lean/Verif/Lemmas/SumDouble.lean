import Mathlib.Data.List.GetD
import Verif.Lemmas.Near
import Verif.Props.Double

/-!
# Lemmas about additions of doubles
-/

set_option autoImplicit false

namespace Postpic.Spec

open Postpic Postpic.Histogram Postpic.Statistics Postpic.Props

/-- Numbers with 53 binary digits, rounded to the nearest one, ties to even, without limits of the exponent. -/
def digits53 (x : ℚ) : Dbl ℚ := .fin (roundEven (x / 2 ^ (Int.log 2 |x| - 52)) * 2 ^ (Int.log 2 |x| - 52))

theorem digits53_accurate : Accurate digits53 (1 / 2 ^ 53) where
  nonneg := by norm_num
  near x := by
    refine ⟨_, rfl, ?_⟩
    have hpos : (0 : ℚ) < 2 ^ (Int.log 2 |x| - 52) := two_zpow_pos _
    generalize hs : (2 : ℚ) ^ (Int.log 2 |x| - 52) = t at hpos
    have h1 := roundEven_near (x / t)
    have h3 : x / t * t = x := div_mul_cancel₀ _ hpos.ne'
    by_cases hx : x = 0
    · subst hx
      rw [zero_div, show roundEven 0 = 0 from roundEven_int 0]
      simp
    have h4 : t ≤ 1 / 2 ^ 52 * |x| := by
      have := Int.zpow_log_le_self (b := 2) (by norm_num) (abs_pos.2 hx)
      rw [← hs, zpow_sub₀ (by norm_num)]
      push_cast at this
      have e : (2 : ℚ) ^ (52 : ℤ) = 2 ^ 52 := by norm_num
      rw [e]
      calc (2 : ℚ) ^ Int.log 2 |x| / 2 ^ 52 ≤ |x| / 2 ^ 52 := div_le_div_of_nonneg_right this (by norm_num)
        _ = _ := by ring
    have h5 : |(roundEven (x / t) : ℚ) * t - x| ≤ 1 / 2 * t := by
      have e : (roundEven (x / t) : ℚ) * t - x = ((roundEven (x / t) : ℚ) - x / t) * t := by rw [sub_mul, h3]
      rw [e, abs_mul, abs_of_pos hpos]
      exact mul_le_mul_of_nonneg_right h1 hpos.le
    linarith

/-- Numbers whose rounding to 53 digits does not change them if they are multiples of the smallest double. -/
theorem double_digits53 {x : ℚ} (hx : |x| < 2 ^ 1023) (h : 2 ^ (-1022 : ℤ) ≤ |x| ∨ ∃ m : ℤ, x = m * 2 ^ (-1074 : ℤ)) :
    double x = digits53 x := by
  obtain ⟨y, y1, -⟩ := double_near x hx
  have hd : double x = .fin (nearDouble x) := by
    unfold double at y1 ⊢
    split_ifs at y1 ⊢
    rfl
  rw [hd]
  unfold digits53
  congr 1
  by_cases hc : -1074 ≤ Int.log 2 |x| - 52
  · unfold nearDouble
    rw [show lastDigit x = Int.log 2 |x| - 52 from max_eq_left hc]
  · have h2 : ∃ m : ℤ, x = m * 2 ^ (-1074 : ℤ) := by
      refine h.resolve_left fun h1 => hc ?_
      have hpos : 0 < |x| := lt_of_lt_of_le (two_zpow_pos _) h1
      have := (Int.zpow_le_iff_le_log (b := 2) (by norm_num) hpos).1 (by exact_mod_cast h1)
      omega
    obtain ⟨m, hm⟩ := h2
    unfold nearDouble
    rw [show lastDigit x = -1074 from max_eq_right (by omega)]
    generalize hE : Int.log 2 |x| - 52 = E at hc
    rw [hm, grid_exact (le_refl _) m, grid_exact (by omega) m]

/-- Doubles are multiples of the smallest one. -/
theorem double_multiple {x : ℚ} (h : double x = .fin x) : ∃ m : ℤ, x = m * 2 ^ (-1074 : ℤ) := by
  obtain ⟨m, e, -, he, hx⟩ := nearDouble_form x
  have h1 : x = nearDouble x := by
    unfold double at h
    split_ifs at h
    exact (Dbl.fin.inj h).symm
  obtain ⟨k, hk⟩ := Int.le.dest he
  refine ⟨m * 2 ^ k, ?_⟩
  rw [h1, hx, ← hk, zpow_add₀ (by norm_num), zpow_natCast]
  push_cast
  ring

/-- The result of rounding is a double. -/
theorem double_idem {x y : ℚ} (h : double x = .fin y) : double y = .fin y := by
  unfold double at h
  split_ifs at h with h1
  have e : nearDouble x = y := Dbl.fin.inj h
  rw [← e, double_fin, nearDouble_idem]
  rw [nearDouble_idem]
  exact not_le.1 h1

/-- Additions of doubles do not underflow. -/
theorem double_add {a b : ℚ} (ha : double a = .fin a) (hb : double b = .fin b) (h : |a + b| < 2 ^ 1023) : double (a + b) = digits53 (a + b) := by
  obtain ⟨m, hm⟩ := double_multiple ha
  obtain ⟨n, hn⟩ := double_multiple hb
  refine double_digits53 h (Or.inr ⟨m + n, ?_⟩)
  push_cast
  rw [add_mul, ← hm, ← hn]

theorem nearAll_fin (u : ℚ) (xs : List ℚ) : NearAll u 0 xs (xs.map abs) (xs.map Dbl.fin) := by
  refine ⟨by simp, by simp, ?_⟩
  intro i hi
  rw [List.length_map] at hi
  refine ⟨xs[i], by simp [List.getElem?_eq_getElem hi], ?_⟩
  rw [List.getD_eq_getElem _ _ hi, List.getD_eq_getElem _ _ (by rw [List.length_map]; exact hi), List.getElem_map]
  exact near_refl _

theorem sumF_double {xs : List ℚ} (hx : ∀ x ∈ xs, double x = .fin x) (t : SumTree) (ht : ∀ i ∈ t.leaves, i < xs.length)
    (hd : (t.depth : ℚ) * (1 / 2 ^ 53) ≤ 1 / 2) (hs : (t.leaves.map fun i => |xs.getD i 0|).sum < 2 ^ 1022) :
    ∃ y, sumF double (xs.map .fin) t = .fin y ∧ sumF digits53 (xs.map .fin) t = .fin y ∧ double y = .fin y := by
  have d0 : double 0 = .fin 0 := double_exact 0 0 (by norm_num) (by norm_num) (by norm_num) (by rw [abs_zero]; positivity)
  have hN : NearAll (1 / 2 ^ 53 : ℚ) 0 xs (xs.map abs) (xs.map Dbl.fin) := nearAll_fin _ xs
  have habs : ∀ t : SumTree, (t.leaves.map fun i => (xs.map abs).getD i 0) = t.leaves.map fun i => |xs.getD i 0| := by
    intro t
    refine List.map_congr_left fun i _ => ?_
    rw [List.getD_eq_getElem?_getD, List.getD_eq_getElem?_getD, List.getElem?_map]
    cases xs[i]? <;> simp
  have hsize : ∀ t : SumTree, (∀ i ∈ t.leaves, i < xs.length) → (t.depth : ℚ) * (1 / 2 ^ 53) ≤ 1 / 2 → ∀ y,
      sumF digits53 (xs.map .fin) t = .fin y → |y| ≤ 2 * (t.leaves.map fun i => |xs.getD i 0|).sum := by
    intro t ht hd y hy
    obtain ⟨z, z1, z2⟩ := nearAll_sumF digits53_accurate (by norm_num) hN t (by simpa using ht)
    rw [hy] at z1
    cases z1
    rw [habs, Nat.zero_add] at z2
    have b1 := near_error (by norm_num) hd z2
    have b2 := z2.1
    have hm := (abs_nonneg _).trans b2
    generalize (t.leaves.map fun i => |xs.getD i 0|).sum = m at *
    generalize (t.leaves.map fun i => xs.getD i 0).sum = e at *
    have b3 : 2 * (t.depth : ℚ) * (1 / 2 ^ 53) * m ≤ 1 * m := mul_le_mul_of_nonneg_right (by linarith) hm
    have b4 : |y| ≤ |y - e| + |e| := by simpa using abs_add_le (y - e) e
    linarith
  induction t with
  | empty => exact ⟨0, rfl, rfl, d0⟩
  | leaf i =>
    have hi : i < xs.length := ht i (by simp [SumTree.leaves])
    refine ⟨xs[i], by simp [sumF, List.getD, List.getElem?_eq_getElem hi], by simp [sumF, List.getD, List.getElem?_eq_getElem hi],
      hx _ (List.getElem_mem _)⟩
  | node l r ihl ihr =>
    have htl : ∀ i ∈ l.leaves, i < xs.length := fun i hi => ht i (by simp [SumTree.leaves, hi])
    have htr : ∀ i ∈ r.leaves, i < xs.length := fun i hi => ht i (by simp [SumTree.leaves, hi])
    have hle : ∀ k : ℕ, k ≤ (SumTree.node l r).depth → (k : ℚ) * (1 / 2 ^ 53) ≤ 1 / 2 := by
      intro k hk
      have : (k : ℚ) ≤ (SumTree.node l r).depth := by exact_mod_cast hk
      exact (mul_le_mul_of_nonneg_right this (by norm_num)).trans hd
    have hdl := hle l.depth (by simp only [SumTree.depth]; omega)
    have hdr := hle r.depth (by simp only [SumTree.depth]; omega)
    simp only [SumTree.leaves, List.map_append, List.sum_append] at hs
    have pos : ∀ L : List ℕ, 0 ≤ (L.map fun i => |xs.getD i 0|).sum := by
      intro L
      refine List.sum_nonneg ?_
      intro a ha
      obtain ⟨i, -, rfl⟩ := List.mem_map.1 ha
      exact abs_nonneg _
    have pl := pos l.leaves
    have pr := pos r.leaves
    obtain ⟨y, y1, y2, y3⟩ := ihl htl hdl (lt_of_le_of_lt (le_add_of_nonneg_right pr) hs)
    obtain ⟨z, z1, z2, z3⟩ := ihr htr hdr (lt_of_le_of_lt (le_add_of_nonneg_left pl) hs)
    have sl := hsize l htl hdl y y2
    have sr := hsize r htr hdr z z2
    have e2 : (2 : ℚ) ^ 1023 = 2 * 2 ^ 1022 := by rw [← pow_succ']
    have hyz : |y + z| < 2 ^ 1023 := by
      rw [e2]
      generalize (2 : ℚ) ^ 1022 = B at hs
      have := abs_add_le y z
      linarith
    have ha := double_add y3 z3 hyz
    refine ⟨_, by rw [sumF, y1, z1]; exact ha, by rw [sumF, y2, z2]; rfl, double_idem ha⟩

/-- Sums of doubles, in any order, without overflow. -/
theorem add_double {add : List (Dbl ℚ) → Dbl ℚ} {n d : ℕ} (S : Summation double add n d) (hk : (d : ℚ) * (1 / 2 ^ 53) ≤ 1 / 2) {xs : List ℚ}
    (hx : ∀ x ∈ xs, double x = .fin x) (hn : xs.length ≤ n) (hs : (xs.map abs).sum < 2 ^ 1022) :
    ∃ y, add (xs.map .fin) = .fin y ∧ double y = .fin y ∧ |y - xs.sum| ≤ 2 * d * (1 / 2 ^ 53) * (xs.map abs).sum := by
  obtain ⟨t, t1, t2, t3⟩ := S (xs.map .fin) (by simpa using hn)
  rw [List.length_map] at t1
  have ht : ∀ i ∈ t.leaves, i < xs.length := fun i hi => by simpa using t1.subset hi
  have habs : (t.leaves.map fun i => |xs.getD i 0|) = t.leaves.map fun i => (xs.map abs).getD i 0 := by
    refine List.map_congr_left fun i _ => ?_
    rw [List.getD_eq_getElem?_getD, List.getD_eq_getElem?_getD, List.getElem?_map]
    cases xs[i]? <;> simp
  have hd : (t.depth : ℚ) * (1 / 2 ^ 53) ≤ 1 / 2 :=
    (mul_le_mul_of_nonneg_right (by exact_mod_cast t2) (by norm_num)).trans hk
  have hl : (t.leaves.map fun i => (xs.map abs).getD i 0).sum = (xs.map abs).sum := leaves_sum (by rw [List.length_map]; exact t1)
  obtain ⟨y, y1, y2, y3⟩ := sumF_double hx t ht hd (by rw [habs, hl]; exact hs)
  refine ⟨y, t3.trans y1, y3, ?_⟩
  have hN : NearAll (1 / 2 ^ 53 : ℚ) 0 xs (xs.map abs) (xs.map Dbl.fin) := nearAll_fin _ xs
  obtain ⟨z, z1, z2⟩ := nearAll_sumF digits53_accurate (by norm_num) hN t (by simpa using ht)
  rw [y2] at z1
  cases z1
  rw [hl, leaves_sum t1, Nat.zero_add] at z2
  exact near_error (by norm_num) hk (near_mono (by norm_num) (by norm_num) t2 z2)

end Postpic.Spec
