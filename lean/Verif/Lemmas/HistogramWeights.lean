import Mathlib.Data.List.GetD
import Verif.Lemmas.HistogramFloat
import Verif.Lemmas.SumDouble
import Verif.Props.CalculusFloat

/-!
# Lemmas about weights in histograms with rounding
-/

set_option autoImplicit false
set_option linter.unusedSectionVars false

namespace Postpic.Histogram

open Postpic Postpic.Spec Postpic.Statistics Postpic.Props

section
variable {K : Type} [Field K] [LinearOrder K] [IsStrictOrderedRing K] [FloorRing K] {rnd : K → Dbl K}

/-- The weights of the particles of a cell are added one after the other. -/
theorem loopF_weights {ι α : Type} [DecidableEq ι] (inb : ι → Bool) (act : α → Res (List (ι × Dbl K))) (cellOf : α → Option ι) (w : α → Dbl K)
    (ps : List α) (h : ∀ p ∈ ps, act p = .ok ((cellOf p).toList.map fun i => (i, w p)))
    (hin : ∀ p ∈ ps, ∀ i, cellOf p = some i → inb i = true) :
    ∃ m, loopF rnd inb act ps = .ok m ∧ ∀ i, m i = ((ps.filter fun p => cellOf p = some i).map w).foldl (Dbl.add rnd) (.fin 0) := by
  suffices H : ∀ n : ι → Dbl K, ∃ m, ps.foldlM (fun m p => do (← act p).foldlM (addAtF rnd inb) m) n = .ok m ∧
      ∀ i, m i = ((ps.filter fun p => cellOf p = some i).map w).foldl (Dbl.add rnd) (n i) from H _
  induction ps with
  | nil => intro n; exact ⟨n, rfl, fun _ => rfl⟩
  | cons p ps ih =>
    intro n
    rw [List.foldlM_cons, h p (by simp)]
    cases hc : cellOf p with
    | none =>
      obtain ⟨m, h1, h2⟩ := ih (fun p hp => h p (by simp [hp])) (fun p hp => hin p (by simp [hp])) n
      refine ⟨m, h1, fun i => ?_⟩
      rw [h2 i, List.filter_cons]
      simp [hc]
    | some j =>
      obtain ⟨m, h1, h2⟩ := ih (fun p hp => h p (by simp [hp])) (fun p hp => hin p (by simp [hp]))
        (Function.update n j (Dbl.add rnd (n j) (w p)))
      refine ⟨m, ?_, fun i => ?_⟩
      · have hj := hin p (by simp) j hc
        simp only [bind, Except.bind, Option.toList_some, List.map_cons, List.map_nil, List.foldlM_cons, List.foldlM_nil, addAtF, if_pos hj]
        exact h1
      · rw [h2 i, List.filter_cons]
        by_cases hi : i = j
        · subst hi
          simp [hc]
        · have hne : ¬ cellOf p = some i := by
            rw [hc]
            intro e
            exact hi (Option.some.inj e).symm
          simp [hne, Function.update_of_ne hi]

theorem loopF_map {ι α β : Type} [DecidableEq ι] (inb : ι → Bool) (act : β → Res (List (ι × Dbl K))) (g : α → β) (ps : List α) :
    loopF rnd inb act (ps.map g) = loopF rnd inb (fun p => act (g p)) ps := by
  unfold loopF
  rw [List.foldlM_map]

theorem sumF_congr {xs ys : List (Dbl K)} (t : SumTree) (h : ∀ i ∈ t.leaves, xs.getD i (.fin 0) = ys.getD i (.fin 0)) :
    sumF rnd xs t = sumF rnd ys t := by
  induction t with
  | empty => rfl
  | leaf i => exact h i (by simp [SumTree.leaves])
  | node l r ihl ihr =>
    simp only [sumF]
    rw [ihl fun i hi => h i (by simp [SumTree.leaves, hi]), ihr fun i hi => h i (by simp [SumTree.leaves, hi])]

/-- Adding one number after the other. -/
theorem foldl_chain (l : List (Dbl K)) : l.foldl (Dbl.add rnd) (.fin 0) = sumF rnd l (chain l.length) := by
  induction l using List.reverseRecOn with
  | nil => rfl
  | append_singleton l a ih =>
    rw [List.foldl_append, List.foldl_cons, List.foldl_nil, ih, List.length_append, List.length_singleton, chain, sumF]
    congr 1
    · refine sumF_congr _ fun i hi => ?_
      rw [chain_leaves, List.mem_range] at hi
      rw [List.getD_append _ _ _ _ hi]
    · simp [sumF]

end

/-- Doubles added one after the other. -/
theorem foldl_double {xs : List ℚ} (hx : ∀ x ∈ xs, double x = .fin x) (hn : xs.length ≤ 2 ^ 52) (hs : (xs.map abs).sum < 2 ^ 1022) :
    ∃ y, (xs.map Dbl.fin).foldl (Dbl.add double) (.fin 0) = .fin y ∧ double y = .fin y ∧
      |y - xs.sum| ≤ xs.length / 2 ^ 52 * (xs.map abs).sum := by
  have hk : (xs.length : ℚ) * (1 / 2 ^ 53) ≤ 1 / 2 := by
    have : (xs.length : ℚ) ≤ 2 ^ 52 := by exact_mod_cast hn
    linarith
  obtain ⟨y, y1, y2, y3⟩ := add_double (chain_summation double xs.length) hk hx (le_refl _) hs
  refine ⟨y, by rw [foldl_chain]; exact y1, y2, y3.trans (le_of_eq ?_)⟩
  ring

end Postpic.Histogram
