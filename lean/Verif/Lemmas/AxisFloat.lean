import Verif.Lemmas.AxisSearch
import Verif.Lemmas.RoundingError
import Verif.Model.AxisFloat

/-!
# Lemmas about the lookup of coordinates with rounding
-/

set_option autoImplicit false
set_option linter.unusedSectionVars false

namespace Postpic.Axes

open Postpic Postpic.Spec Postpic.Histogram

variable {K : Type} [Field K] [LinearOrder K] [IsStrictOrderedRing K] [FloorRing K]

/-- `g'` is on the same side of `v` as `g`, and not nearer. -/
def Beyond (v g g' : K) : Prop := (0 ≤ v - g ∧ v - g ≤ v - g') ∨ (v - g' ≤ v - g ∧ v - g ≤ 0)

/-- What the binary search finds. -/
theorem search_split {ax : Axis K} (hv : ax.Valid) (hne : ax.grid ≠ []) (v : K) :
    ∃ k, ax.search v = .ok k ∧ k ≤ ax.grid.length ∧
      (∀ (i j : ℕ) (a b : K), i ≤ j → j < k → ax.grid[i]? = some a → ax.grid[j]? = some b → Beyond v b a ∧ b ≠ v) ∧
      (∀ (i j : ℕ) (a b : K), i ≤ j → k ≤ i → ax.grid[i]? = some a → ax.grid[j]? = some b → Beyond v a b) := by
  rcases (wf_iff _ _).1 hv.wf with h | h
  · have hp := pairwise_of_mono lt_tr (interleave_mono_grid lt_tr h)
    have hs : ∀ (j : ℕ) (g : K), ax.grid[j]? = some g → (j < (ax.grid.takeWhile fun g => decide (g < v)).length ↔ g < v) := by
      intro j g hj
      simpa using takeWhile_split (fun g => decide (g < v)) (hp.imp (by intro a b hab hb; simp at hb ⊢; linarith)) j g hj
    have hle : ∀ (i j : ℕ) (a b : K), i ≤ j → ax.grid[i]? = some a → ax.grid[j]? = some b → a ≤ b := by
      intro i j a b hij ha hb
      rcases Nat.lt_or_ge i j with hlt | hge
      · exact le_of_lt (pairwise_get hp hlt ha hb)
      · obtain rfl : i = j := by omega
        rw [ha] at hb
        exact le_of_eq (Option.some.inj hb)
    refine ⟨_, search_inc hv h v, (List.takeWhile_prefix _).length_le, ?_, ?_⟩
    · intro i j a b hij hj ha hb
      have h1 := hle i j a b hij ha hb
      have h2 := (hs j b hb).1 hj
      exact ⟨.inl ⟨by linarith, by linarith⟩, ne_of_lt h2⟩
    · intro i j a b hij hi ha hb
      have h1 := hle i j a b hij ha hb
      have h2 : ¬ a < v := fun h => absurd ((hs i a ha).2 h) (by omega)
      exact .inr ⟨by linarith, by linarith [not_lt.1 h2]⟩
  · have hp := pairwise_of_mono gt_tr (interleave_mono_grid gt_tr h)
    have hs : ∀ (j : ℕ) (g : K), ax.grid[j]? = some g → (j < (ax.grid.takeWhile fun g => decide (v < g)).length ↔ v < g) := by
      intro j g hj
      simpa using takeWhile_split (fun g => decide (v < g)) (hp.imp (by intro a b hab hb; simp at hb ⊢; linarith)) j g hj
    have hle : ∀ (i j : ℕ) (a b : K), i ≤ j → ax.grid[i]? = some a → ax.grid[j]? = some b → b ≤ a := by
      intro i j a b hij ha hb
      rcases Nat.lt_or_ge i j with hlt | hge
      · exact le_of_lt (pairwise_get hp hlt ha hb)
      · obtain rfl : i = j := by omega
        rw [ha] at hb
        exact le_of_eq (Option.some.inj hb).symm
    refine ⟨_, search_dec hv h v hne, (List.takeWhile_prefix _).length_le, ?_, ?_⟩
    · intro i j a b hij hj ha hb
      have h1 := hle i j a b hij ha hb
      have h2 := (hs j b hb).1 hj
      exact ⟨.inr ⟨by linarith, by linarith⟩, ne_of_gt h2⟩
    · intro i j a b hij hi ha hb
      have h1 := hle i j a b hij ha hb
      have h2 : ¬ v < a := fun h => absurd ((hs i a ha).2 h) (by omega)
      exact .inl ⟨by linarith [not_lt.1 h2], by linarith⟩

/-- The index found, and what is known about the points: every point is beyond one that is compared. -/
theorem findNearestF_split_mem (rnd : K → Dbl K) {ax : Axis K} (hv : ax.Valid) (hne : ax.grid ≠ []) (v : K) :
    ∃ i g, ax.findNearestIndexF rnd v = .ok i ∧ ax.grid[i]? = some g ∧ ∀ j g', ax.grid[j]? = some g' →
      Beyond v g g' ∨ ∃ c ∈ ax.grid, Beyond v c g' ∧
        (((distanceF rnd v g).lt (distanceF rnd v c) = true ∧ i < j) ∨ ((distanceF rnd v c).lt (distanceF rnd v g) = false ∧ g' ≠ v)) := by
  obtain ⟨k, hs, hk, hlow, hhigh⟩ := search_split hv hne v
  have hpos : 0 < ax.grid.length := List.length_pos_iff.2 hne
  unfold Axis.findNearestIndexF
  rw [hs]
  simp only [bind, Except.bind, pure, Except.pure]
  have hl : ax.len = ax.grid.length := rfl
  by_cases h0 : 0 < k
  · have hk1 : k - 1 < ax.grid.length := by omega
    have hga := List.getElem?_eq_getElem hk1
    rw [if_pos h0]
    by_cases he : k = ax.len
    · rw [if_pos he]
      refine ⟨k - 1, _, rfl, hga, fun j g' hg' => .inl ?_⟩
      have hj : j < ax.grid.length := (List.getElem?_eq_some_iff.1 hg').1
      exact (hlow j (k - 1) _ _ (by omega) (by omega) hg' hga).1
    · have hk2 : k < ax.grid.length := by omega
      have hgb := List.getElem?_eq_getElem hk2
      rw [if_neg he, hga, hgb]
      simp only
      by_cases hc : (distanceF rnd v ax.grid[k - 1]).lt (distanceF rnd v ax.grid[k]) = true
      · rw [if_pos hc]
        refine ⟨k - 1, _, rfl, hga, fun j g' hg' => ?_⟩
        rcases Nat.lt_or_ge j k with hj | hj
        · exact .inl (hlow j (k - 1) _ _ (by omega) (by omega) hg' hga).1
        · exact .inr ⟨_, List.mem_of_getElem? hgb, hhigh k j _ _ hj le_rfl hgb hg', .inl ⟨hc, by omega⟩⟩
      · rw [if_neg hc]
        refine ⟨k, _, rfl, hgb, fun j g' hg' => ?_⟩
        rcases Nat.lt_or_ge j k with hj | hj
        · exact .inr ⟨_, List.mem_of_getElem? hga, (hlow j (k - 1) _ _ (by omega) (by omega) hg' hga).1, .inr ⟨by simpa using hc,
            (hlow j j _ _ le_rfl hj hg' hg').2⟩⟩
        · exact .inl (hhigh k j _ _ hj le_rfl hgb hg')
  · rw [if_neg h0]
    refine ⟨k, _, rfl, List.getElem?_eq_getElem (by omega), fun j g' hg' => .inl ?_⟩
    exact hhigh k j _ _ (by omega) le_rfl (List.getElem?_eq_getElem (by omega)) hg'

theorem findNearestF_split (rnd : K → Dbl K) {ax : Axis K} (hv : ax.Valid) (hne : ax.grid ≠ []) (v : K) :
    ∃ i g, ax.findNearestIndexF rnd v = .ok i ∧ ax.grid[i]? = some g ∧ ∀ j g', ax.grid[j]? = some g' →
      Beyond v g g' ∨ ∃ c, Beyond v c g' ∧
        (((distanceF rnd v g).lt (distanceF rnd v c) = true ∧ i < j) ∨ ((distanceF rnd v c).lt (distanceF rnd v g) = false ∧ g' ≠ v)) := by
  obtain ⟨i, g, h1, h2, h3⟩ := findNearestF_split_mem rnd hv hne v
  refine ⟨i, g, h1, h2, fun j g' hg' => ?_⟩
  rcases h3 j g' hg' with h | ⟨c, -, h⟩
  · exact .inl h
  · exact .inr ⟨c, h⟩

theorem beyond_abs {v g g' : K} (h : Beyond v g g') : |v - g| ≤ |v - g'| := by
  rcases h with ⟨h1, h2⟩ | ⟨h1, h2⟩
  · rw [abs_of_nonneg h1, abs_of_nonneg (by linarith)]
    exact h2
  · rw [abs_of_nonpos h2, abs_of_nonpos (by linarith)]
    linarith

theorem distanceF_eq (rnd : K → Dbl K) (v g : K) : distanceF rnd v g = (rnd (v - g)).abs := by
  rw [sub_eq_add_neg]
  rfl

/-- Rounding keeps the order of distances on the same side. -/
theorem beyond_rounded {rnd : K → Dbl K} (hr : Rounding rnd) {v g g' : K} (h : Beyond v g g') :
    (distanceF rnd v g).le (distanceF rnd v g') = true := by
  have z := hr.exact 0 (by norm_num)
  simp only [Int.cast_zero, zero_div] at z
  rw [distanceF_eq, distanceF_eq]
  rcases h with ⟨h1, h2⟩ | ⟨h1, h2⟩
  · have m1 := hr.mono _ _ h1
    have m2 := hr.mono _ _ h2
    rw [z] at m1
    generalize rnd (v - g) = a at *
    generalize rnd (v - g') = b at *
    rcases a with _ | s | a <;> rcases b with _ | t | b
    all_goals try cases s
    all_goals try cases t
    all_goals simp [Dbl.le, Dbl.abs] at m1 m2 ⊢
    rw [abs_of_nonneg m1, abs_of_nonneg (by linarith)]
    exact m2
  · have m1 := hr.mono _ _ h1
    have m2 := hr.mono _ _ h2
    rw [z] at m2
    generalize rnd (v - g) = a at *
    generalize rnd (v - g') = b at *
    rcases a with _ | s | a <;> rcases b with _ | t | b
    all_goals try cases s
    all_goals try cases t
    all_goals simp [Dbl.le, Dbl.abs] at m1 m2 ⊢
    rw [abs_of_nonpos m2, abs_of_nonpos (by linarith)]
    linarith

theorem not_lt_of_le {a b : Dbl K} (h : a.le b = true) : b.lt a = false := by
  rcases a with _ | s | a <;> rcases b with _ | t | b
  all_goals try cases s
  all_goals try cases t
  all_goals simp_all [Dbl.le, Dbl.lt]

theorem not_lt_trans {a b c : Dbl K} (h : b.lt a = false) (hb : b ≠ .nan) (h2 : b.le c = true) : c.lt a = false := by
  rcases a with _ | s | a <;> rcases b with _ | t | b <;> rcases c with _ | r | c
  all_goals try cases s
  all_goals try cases t
  all_goals try cases r
  all_goals simp_all [Dbl.le, Dbl.lt]
  linarith

theorem not_lt_of_lt_le {a b c : Dbl K} (h : a.lt b = true) (h2 : b.le c = true) : c.lt a = false := by
  rcases a with _ | s | a <;> rcases b with _ | t | b <;> rcases c with _ | r | c
  all_goals try cases s
  all_goals try cases t
  all_goals try cases r
  all_goals simp_all [Dbl.le, Dbl.lt]
  linarith

/-- The distance with its error. -/
theorem distance_near {rnd : K → Dbl K} {u : K} (A : Accurate rnd u) (v g : K) :
    ∃ d, distanceF rnd v g = .fin d ∧ (1 - u) * |v - g| ≤ d ∧ d ≤ (1 + u) * |v - g| := by
  obtain ⟨y, hy, he⟩ := A.near (v - g)
  rw [distanceF_eq, hy]
  refine ⟨|y|, rfl, ?_, ?_⟩
  · have := abs_sub_abs_le_abs_sub (v - g) y
    rw [abs_sub_comm] at he
    linarith
  · have := abs_sub_abs_le_abs_sub y (v - g)
    linarith

end Postpic.Axes
