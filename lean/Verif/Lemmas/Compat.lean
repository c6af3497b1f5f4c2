import Mathlib.Algebra.Order.Floor.Ring
import Mathlib.Data.List.NodupEquivFin
import Mathlib.Tactic.Linarith
import Mathlib.Tactic.FieldSimp
import Mathlib.Tactic.Ring
import Verif.Model.Compat

/-!
# Lemmas about the replacement functions
-/

set_option autoImplicit false

namespace Postpic.Compat

open Postpic

/-! ### moveaxis -/

/-- Inserting pairs with increasing positions, none of which is beyond the end, puts every value at
its position. -/
theorem insert_all : ∀ (ps : List (ℕ × ℕ)) (l : List ℕ), ps.Pairwise (fun p q => p.1 < q.1) →
    (∀ (i : ℕ) (p : ℕ × ℕ), ps[i]? = some p → p.1 ≤ l.length + i) →
    (∀ p ∈ ps, (ps.foldl (fun l p => pyInsert l p.1 p.2) l)[p.1]? = some p.2) ∧
    (∀ i, (∀ p ∈ ps, i < p.1) → i < l.length →
      (ps.foldl (fun l p => pyInsert l p.1 p.2) l)[i]? = l[i]?) ∧
    (ps.foldl (fun l p => pyInsert l p.1 p.2) l).Perm (ps.map (·.2) ++ l) := by
  intro ps
  induction ps with
  | nil => intro l _ _; simp
  | cons p ps ih =>
    intro l hs hb
    rw [List.pairwise_cons] at hs
    have hp : p.1 ≤ l.length := by simpa using hb 0 p (by simp)
    have hins : pyInsert l p.1 p.2 = l.insertIdx p.1 p.2 := by
      unfold pyInsert
      rw [min_eq_left hp]
    have hlen : (pyInsert l p.1 p.2).length = l.length + 1 := by
      rw [hins, List.length_insertIdx_of_le_length hp]
    obtain ⟨h1, h2, h3⟩ := ih (pyInsert l p.1 p.2) hs.2 (by
      intro i q hq
      have := hb (i + 1) q (by simpa using hq)
      omega)
    simp only [List.foldl_cons]
    refine ⟨?_, ?_, ?_⟩
    · intro q hq
      rcases List.mem_cons.1 hq with rfl | hq
      · rw [h2 _ (fun r hr => hs.1 r hr) (by omega), hins, List.getElem?_insertIdx_self, if_pos hp]
      · exact h1 q hq
    · intro i hi hil
      have hip : i < p.1 := hi p (by simp)
      rw [h2 i (fun r hr => hi r (by simp [hr])) (by omega), hins,
        List.getElem?_insertIdx_of_lt hip]
    · refine h3.trans ?_
      rw [hins]
      refine (List.Perm.append_left _ (List.perm_insertIdx p.2 l hp)).trans ?_
      simp only [List.map_cons, List.cons_append]
      exact List.perm_middle

/-- The values that are inserted do not change the order of the others. -/
theorem insert_filter (S : List ℕ) : ∀ (ps : List (ℕ × ℕ)) (l : List ℕ),
    (∀ p ∈ ps, p.2 ∈ S) →
    (ps.foldl (fun l p => pyInsert l p.1 p.2) l).filter (fun i => decide (i ∉ S)) =
      l.filter fun i => decide (i ∉ S) := by
  have one : ∀ (l : List ℕ) (i v : ℕ), v ∈ S →
      (l.insertIdx i v).filter (fun i => decide (i ∉ S)) = l.filter fun i => decide (i ∉ S) := by
    intro l
    induction l with
    | nil =>
      intro i v hv
      cases i with
      | zero => simp [hv]
      | succ i => rfl
    | cons a l ih =>
      intro i v hv
      cases i with
      | zero =>
        rw [List.insertIdx_zero, List.filter_cons_of_neg (by simpa using hv)]
      | succ i =>
        rw [List.insertIdx_succ_cons, List.filter_cons, List.filter_cons, ih i v hv]
  intro ps
  induction ps with
  | nil => intro l _; rfl
  | cons p ps ih =>
    intro l h
    rw [List.foldl_cons, ih _ fun q hq => h q (by simp [hq])]
    exact one l _ p.2 (h p (by simp))

instance : Std.Total pairLe := ⟨fun p q => by unfold pairLe; omega⟩

instance : IsTrans (ℕ × ℕ) pairLe := ⟨fun p q r => by unfold pairLe; omega⟩

/-- Increasing numbers below `n`: the last `m` of them leave room. -/
theorem increasing_room {n : ℕ} : ∀ (ps : List (ℕ × ℕ)), ps.Pairwise (fun p q => p.1 < q.1) →
    (∀ p ∈ ps, p.1 < n) → ∀ (i : ℕ) (p : ℕ × ℕ), ps[i]? = some p → p.1 + (ps.length - i) ≤ n := by
  intro ps
  induction ps with
  | nil => intro _ _ i p h; simp at h
  | cons q ps ih =>
    intro hs hn i p hp
    rw [List.pairwise_cons] at hs
    cases i with
    | zero =>
      simp only [List.getElem?_cons_zero, Option.some.injEq] at hp
      subst hp
      cases ps with
      | nil =>
        have := hn q (by simp)
        simp only [List.length_cons, List.length_nil]
        omega
      | cons r ps =>
        have h1 := ih hs.2 (fun p hp => hn p (by simp [hp])) 0 r (by simp)
        have h2 := hs.1 r (by simp)
        simp only [List.length_cons] at h1 ⊢
        omega
    | succ i =>
      have h1 := ih hs.2 (fun p hp => hn p (by simp [hp])) i p (by simpa using hp)
      simp only [List.length_cons]
      omega

theorem filter_not_mem_length {n : ℕ} {S : List ℕ} (hS : S.Nodup) (hn : ∀ s ∈ S, s < n) :
    ((List.range n).filter fun i => decide (i ∉ S)).length + S.length = n := by
  have h1 : ((List.range n).filter fun i => decide (i ∈ S)).Perm S := by
    refine (List.perm_ext_iff_of_nodup (List.nodup_range.filter _) hS).2 ?_
    intro a
    simp only [List.mem_filter, List.mem_range, decide_eq_true_eq]
    exact ⟨fun h => h.2, fun h => ⟨hn a h, h⟩⟩
  have h2 := List.length_eq_length_filter_add (l := List.range n) (fun i => decide (i ∈ S))
  rw [List.length_range, h1.length_eq] at h2
  have h3 : ((List.range n).filter fun i => decide (i ∉ S)) =
      (List.range n).filter fun i => !decide (i ∈ S) := by
    congr 1
    funext i
    simp
  rw [h3]
  omega

/-! ### The window -/

theorem sliceFwd_range (M a b : ℕ) (hb : b ≤ M) :
    sliceFwd (List.range M) (some (a : ℤ)) (some (b : ℤ)) = (List.range b).drop a := by
  unfold sliceFwd clampFwd
  simp only [List.length_range]
  rw [if_neg (by omega), if_neg (by omega), Int.toNat_natCast, Int.toNat_natCast, min_eq_left hb,
    List.take_range, min_eq_left hb]
  by_cases h : a ≤ M
  · rw [min_eq_left h]
  · rw [min_eq_right (by omega), List.drop_eq_nil_of_le (by simpa using hb),
      List.drop_eq_nil_of_le (by simp; omega)]

/-- The width of the edges is smaller than half of the window. -/
theorem width_bounds {M : ℕ} (hM : 2 ≤ M) {alpha : ℝ} (h0 : 0 < alpha) (h1 : alpha < 1) :
    ∃ w : ℕ, ⌊alpha * ((M : ℝ) - 1) / 2⌋ = (w : ℤ) ∧ 2 * w + 2 ≤ M ∧
      (w : ℝ) ≤ alpha * ((M : ℝ) - 1) / 2 ∧ alpha * ((M : ℝ) - 1) / 2 < w + 1 := by
  have hM' : (2 : ℝ) ≤ M := by exact_mod_cast hM
  have hpos : 0 ≤ alpha * ((M : ℝ) - 1) / 2 := by
    have : 0 ≤ alpha * ((M : ℝ) - 1) := mul_nonneg h0.le (by linarith)
    linarith
  obtain ⟨w, hw⟩ := Int.eq_ofNat_of_zero_le (Int.floor_nonneg.2 hpos)
  have hle := Int.floor_le (alpha * ((M : ℝ) - 1) / 2)
  have hlt := Int.lt_floor_add_one (alpha * ((M : ℝ) - 1) / 2)
  rw [hw] at hle hlt
  simp only [Int.cast_natCast] at hle hlt
  refine ⟨w, hw, ?_, hle, hlt⟩
  have : (2 * w : ℝ) < M - 1 := by
    have : alpha * ((M : ℝ) - 1) < M - 1 := by
      have : 0 < (M : ℝ) - 1 := by linarith
      nlinarith
    linarith
  have h2 : (2 * w + 1 : ℝ) < M := by linarith
  have h3 : 2 * w + 1 < M := by exact_mod_cast h2
  omega

/-- The window, point by point. -/
theorem tukeyWindow_get {M : ℕ} (hM : 2 ≤ M) {alpha : ℝ} (h0 : 0 < alpha) (h1 : alpha < 1) {w : ℕ}
    (hw : ⌊alpha * ((M : ℝ) - 1) / 2⌋ = (w : ℤ)) (h2 : 2 * w + 2 ≤ M) :
    (tukeyWindow M alpha).length = M ∧ ∀ i < M, (tukeyWindow M alpha)[i]? = some
      (if i ≤ w then tukeyRise alpha M i else if i + w + 2 ≤ M then 1 else tukeyFall alpha M i) := by
  have e1 : sliceFwd (List.range M) (some 0) (some ((w : ℤ) + 1)) = List.range (w + 1) := by
    have := sliceFwd_range M 0 (w + 1) (by omega)
    simpa using this
  have e2 : sliceFwd (List.range M) (some ((w : ℤ) + 1)) (some ((M : ℤ) - w - 1)) =
      (List.range (M - w - 1)).drop (w + 1) := by
    have := sliceFwd_range M (w + 1) (M - w - 1) (by omega)
    have c1 : ((w + 1 : ℕ) : ℤ) = (w : ℤ) + 1 := by push_cast; ring
    have c2 : ((M - w - 1 : ℕ) : ℤ) = (M : ℤ) - w - 1 := by omega
    rwa [c1, c2] at this
  have e3 : sliceFwd (List.range M) (some ((M : ℤ) - w - 1)) none =
      (List.range M).drop (M - w - 1) := by
    have := sliceFwd_range M (M - w - 1) M (le_refl M)
    have c2 : ((M - w - 1 : ℕ) : ℤ) = (M : ℤ) - w - 1 := by omega
    rw [c2] at this
    rw [← this]
    unfold sliceFwd clampFwd
    simp [show ¬ ((M : ℤ) < 0) by omega]
  have e : tukeyWindow M alpha = (List.range (w + 1)).map (tukeyRise alpha M) ++
      ((List.range (M - w - 1)).drop (w + 1)).map (fun _ => 1) ++
      ((List.range M).drop (M - w - 1)).map (tukeyFall alpha M) := by
    unfold tukeyWindow
    simp only
    rw [hw, e1, e2, e3]
  rw [e]
  refine ⟨by simp; omega, fun i hi => ?_⟩
  by_cases c1 : i ≤ w
  · rw [if_pos c1, List.append_assoc, List.getElem?_append_left (by simp; omega),
      List.getElem?_map, List.getElem?_range (by omega)]
    rfl
  · rw [if_neg c1]
    by_cases c2 : i + w + 2 ≤ M
    · rw [if_pos c2, List.getElem?_append_left (by simp; omega),
        List.getElem?_append_right (by simp; omega), List.getElem?_map, List.getElem?_drop,
        List.length_map, List.length_range, List.getElem?_range (by omega)]
      rfl
    · rw [if_neg c2, List.getElem?_append_right (by simp; omega), List.getElem?_map,
        List.getElem?_drop, List.length_append, List.length_map, List.length_map,
        List.length_drop, List.length_range, List.length_range, List.getElem?_range (by omega)]
      simp only [Option.map_some]
      congr 2
      omega

theorem rise_unit (alpha : ℝ) (M i : ℕ) : 0 ≤ tukeyRise alpha M i ∧ tukeyRise alpha M i ≤ 1 := by
  unfold tukeyRise
  constructor
  · have := Real.neg_one_le_cos (Real.pi * (-1 + 2 * i / alpha / ((M : ℝ) - 1)))
    linarith
  · have := Real.cos_le_one (Real.pi * (-1 + 2 * i / alpha / ((M : ℝ) - 1)))
    linarith

theorem fall_eq_rise {alpha : ℝ} (h0 : 0 < alpha) {M i : ℕ} (hi : i < M) (hM : 2 ≤ M) :
    tukeyFall alpha M (M - 1 - i) = tukeyRise alpha M i := by
  have hM' : (2 : ℝ) ≤ M := by exact_mod_cast hM
  have hc : ((M - 1 - i : ℕ) : ℝ) = (M : ℝ) - 1 - i := by
    have : M - 1 - i + i + 1 = M := by omega
    have h2 : ((M - 1 - i + i + 1 : ℕ) : ℝ) = M := by rw [this]
    push_cast at h2
    linarith
  unfold tukeyFall tukeyRise
  rw [hc, ← Real.cos_neg]
  have : -(Real.pi * (-2 / alpha + 1 + 2 * ((M : ℝ) - 1 - i) / alpha / ((M : ℝ) - 1))) =
      Real.pi * (-1 + 2 * i / alpha / ((M : ℝ) - 1)) := by
    have hne : (M : ℝ) - 1 ≠ 0 := by linarith
    field_simp
    ring
  rw [this]

theorem fall_eq_rise' {alpha : ℝ} (h0 : 0 < alpha) {M i : ℕ} (hi : i < M) (hM : 2 ≤ M) :
    tukeyFall alpha M i = tukeyRise alpha M (M - 1 - i) := by
  have := fall_eq_rise h0 (M := M) (i := M - 1 - i) (by omega) hM
  rwa [show M - 1 - (M - 1 - i) = i by omega] at this

end Postpic.Compat
