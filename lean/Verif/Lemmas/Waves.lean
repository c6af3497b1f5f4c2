import Verif.Spec.Waves
import Verif.Props.Fft

/-!
# Lemmas about superpositions of plane waves
-/

set_option autoImplicit false

namespace Postpic.Props

open Postpic Postpic.Axes Postpic.Fields Postpic.Spec

noncomputable section

theorem wavesAt_congr {κ : ℕ → List ℝ} {x y : ℕ → ℝ} {L : List ℕ} (h : ∀ d ∈ L, x d = y d) (A : List ℕ → ℂ) (idx : List ℕ) :
    wavesAt κ x L A idx = wavesAt κ y L A idx := by
  induction L generalizing idx with
  | nil => rfl
  | cons d L ih =>
    simp only [wavesAt, h d (by simp)]
    exact Finset.sum_congr rfl fun m _ => by rw [ih fun e he => h e (by simp [he])]

theorem wavesAt_smul (κ : ℕ → List ℝ) (x : ℕ → ℝ) (L : List ℕ) (c : ℂ) (A : List ℕ → ℂ) (idx : List ℕ) :
    wavesAt κ x L (fun i => c * A i) idx = c * wavesAt κ x L A idx := by
  induction L generalizing idx with
  | nil => rfl
  | cons d L ih =>
    simp only [wavesAt, ih, Finset.mul_sum]
    exact Finset.sum_congr rfl fun m _ => by ring

theorem wavesAt_kappa {κ κ' : ℕ → List ℝ} {x : ℕ → ℝ} {L : List ℕ} (h : ∀ d ∈ L, κ d = κ' d) (A : List ℕ → ℂ) (idx : List ℕ) :
    wavesAt κ x L A idx = wavesAt κ' x L A idx := by
  induction L generalizing idx with
  | nil => rfl
  | cons d L ih =>
    simp only [wavesAt, h d (by simp)]
    exact Finset.sum_congr rfl fun m _ => by rw [ih fun e he => h e (by simp [he])]

/-- Transforming back is adding up waves. -/
theorem fold_waves (c : ℕ → ℝ) (κ xs : ℕ → List ℝ) (L : List ℕ) (hL : L.Nodup) (A : List ℕ → ℂ) (idx : List ℕ)
    (hidx : ∀ d ∈ L, d < idx.length) :
    L.reverse.foldl (fun g d => fourierAlong (c d) 1 (κ d) (xs d) d g) A idx =
      wavesAt κ (fun d => (xs d).getD (idx.getD d 0) 0) L (fun i => ((L.map c).prod : ℝ) * A i) idx := by
  induction L generalizing idx with
  | nil => simp [wavesAt]
  | cons d L ih =>
    rw [List.reverse_cons, List.foldl_append]
    simp only [List.foldl_cons, List.foldl_nil, fourierAlong, wavesAt]
    rw [Finset.mul_sum]
    refine Finset.sum_congr rfl fun m _ => ?_
    have hnd := List.nodup_cons.1 hL
    rw [ih hnd.2 _ fun e he => by rw [List.length_set]; exact hidx e (by simp [he])]
    rw [wavesAt_congr (y := fun d => (xs d).getD (idx.getD d 0) 0) fun e he => by
      have hne : d ≠ e := fun h => hnd.1 (h ▸ he)
      simp only [List.getD_eq_getElem?_getD, List.getElem?_set_ne hne]]
    rw [wavesAt_smul, wavesAt_smul, List.map_cons, List.prod_cons]
    push_cast
    rw [show ∀ a b : ℂ, 1 * Complex.I * a * b = Complex.I * b * a from fun a b => by ring]
    ring

end

end Postpic.Props
