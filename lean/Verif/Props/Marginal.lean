import Verif.Lemmas.Marginal
import Verif.Props.Histogram

/-!
# C06: histograms in two and three dimensions agree with those in fewer dimensions

Summing over one axis, along which all particles are inside the range, gives the histogram of the other coordinates. The equations are between
the results including undefined behaviour.
-/

set_option autoImplicit false
set_option linter.unusedSectionVars false

namespace Postpic.Props

open Postpic Postpic.Histogram Postpic.Spec

variable {K : Type*} [Field K] [LinearOrder K] [IsStrictOrderedRing K] [FloorRing K]

/-! ## Two dimensions -/

/-- Summing over the second axis gives the histogram of the first coordinate, wherever the particles are along the first axis. -/
theorem histogram2d_sum_second (spacing : K → K) (s : Shape) (datax datay : List K) (rx ry : K × K) (xb yb : ℕ)
    (weights : Option (List K)) (ha : Args2 spacing datax datay rx ry xb yb weights)
    (hy : ∀ d ∈ datay, Inside s yb (scaled ry yb d)) :
    histogram spacing s datax rx xb weights =
      (histogram2d spacing s datax datay rx ry xb yb weights).map fun r => (r.1.map List.sum, r.2.1) := by
  have h2 : ∀ p ∈ (datax.zip datay).zip (weightsOf datax.length weights), ∀ w ∈ c2 s xb yb rx ry p,
      (inRange (xb + 2 * supp s) w.1.1 && inRange (yb + 2 * supp s) w.1.2) = true := by
    intro p hp w hw
    refine c2_inRange s ha.binsx ha.binsy rx ry p (Or.inr ?_) w hw
    exact half_bound ha.binsy (hy _ (List.of_mem_zip (List.of_mem_zip hp).1).2).1
  rw [histogram_closed spacing s datax rx xb weights ha.rangex ha.weights.ge,
    if_pos (fun p _ w hw => c1_inRange s ha.binsx rx p w hw),
    histogram2d_closed spacing s datax datay rx ry xb yb weights ha.len ha.rangex ha.rangey ha.weights.ge, if_pos h2]
  simp only [Except.map, grid1, grid2, List.map_map, Function.comp_def, wsum_c1', wsum_c2', Except.ok.injEq, Prod.mk.injEq, and_true]
  apply List.map_congr_left; intro i _
  rw [sum_swap, zip_first datax datay _ ha.len, List.map_map]
  congr 1
  apply List.map_congr_left; intro p hp
  have hin := hy _ (List.of_mem_zip (List.of_mem_zip hp).1).2
  simp only [Function.comp_def, guard2_second ha.binsy hin]
  by_cases hg : guard1 s xb (scaled rx xb p.1.1) = true
  · simp only [if_pos hg, List.sum_map_mul_right, List.sum_map_mul_left]
    rw [sum_w1 ha.binsy hin, mul_one]
  · simp [if_neg hg]

example : histogram (fun _ => (1 / 1000 : ℚ)) .tophat [-1 / 4, 1] (0, 2) 2 none =
    (histogram2d (fun _ => (1 / 1000 : ℚ)) .tophat [-1 / 4, 1] [3 / 4, 1] (0, 2) (0, 2) 2 2 none).map
      fun r => (r.1.map List.sum, r.2.1) := by
  apply histogram2d_sum_second
  · exact ⟨rfl, ⟨by norm_num, by norm_num⟩, ⟨by norm_num, by norm_num⟩, by norm_num, by norm_num, rfl⟩
  · intro d hd; simp at hd
    rcases hd with rfl | rfl <;> simp only [Inside, InRange, scaled, radius] <;> norm_num

/-- Summing over the first axis gives the histogram of the second coordinate.

Missing for the full property: particles just below the range along the second axis, see `histogram2d_sum_first_violated` (and so far above that
the cast overflows, see C02). -/
theorem histogram2d_sum_first_partial (spacing : K → K) (s : Shape) (datax datay : List K) (rx ry : K × K) (xb yb : ℕ)
    (weights : Option (List K)) (ha : Args2 spacing datax datay rx ry xb yb weights)
    (hx : ∀ d ∈ datax, Inside s xb (scaled rx xb d)) (hy : ∀ d ∈ datay, Sided s (scaled ry yb d)) :
    histogram spacing s datay ry yb weights =
      (histogram2d spacing s datax datay rx ry xb yb weights).map fun r => (sumFirst yb r.1, r.2.2) := by
  have h2 : ∀ p ∈ (datax.zip datay).zip (weightsOf datax.length weights), ∀ w ∈ c2 s xb yb rx ry p,
      (inRange (xb + 2 * supp s) w.1.1 && inRange (yb + 2 * supp s) w.1.2) = true := by
    intro p hp w hw
    refine c2_inRange s ha.binsx ha.binsy rx ry p ?_ w hw
    exact (hy _ (List.of_mem_zip (List.of_mem_zip hp).1).2).imp_right And.right
  have hw := ha.weights
  rw [histogram_closed spacing s datay ry yb weights ha.rangey (by rw [← ha.len, hw]),
    if_pos (fun p _ w hw => c1_inRange s ha.binsy ry p w hw),
    histogram2d_closed spacing s datax datay rx ry xb yb weights ha.len ha.rangex ha.rangey ha.weights.ge, if_pos h2]
  simp only [Except.map, grid1, grid2, sumFirst, List.map_map, Function.comp_def, wsum_c1', wsum_c2', Except.ok.injEq, Prod.mk.injEq,
    and_true]
  apply List.map_congr_left; intro j hj
  have hj' : j < yb := List.mem_range.1 hj
  simp only [List.getD_eq_getElem?_getD, List.getElem?_map, List.getElem?_range hj', Option.map_some, Option.getD_some]
  rw [sum_swap, ← ha.len, zip_second datax datay _ ha.len, List.map_map]
  congr 1
  apply List.map_congr_left; intro p hp
  have hp' := List.of_mem_zip (List.of_mem_zip hp).1
  simp only [Function.comp_def, guard2_first ha.binsx (hx _ hp'.1) (hy _ hp'.2)]
  by_cases hg : guard1 s yb (scaled ry yb p.1.2) = true
  · simp only [if_pos hg, List.sum_map_mul_right]
    rw [sum_w1 ha.binsx (hx _ hp'.1), one_mul]
  · simp [if_neg hg]

example : Sided .triangle (-1 : ℚ) ∧ Sided .tophat (7 : ℚ) := by
  constructor <;> right <;> simp only [lowest] <;> norm_num

/-- A particle a quarter of a cell below the range counts in one dimension, but not in two along the second axis. -/
theorem histogram2d_sum_first_violated :
    histogram (fun _ => (1 / 1000 : ℚ)) .tophat [-1 / 4] (0, 1) 1 none = .ok ([1 / 4], [0, 1]) ∧
    histogram2d (fun _ => (1 / 1000 : ℚ)) .tophat [1 / 2] [-1 / 4] (0, 1) (0, 1) 1 1 none = .ok ([[0]], [0, 1], [0, 1]) := by
  constructor <;> decide +kernel

/-! ## Three dimensions -/

/-- Summing over the third axis gives the two dimensional histogram of the first two coordinates, wherever the particles are. -/
theorem histogram3d_sum_third (spacing : K → K) (s : Shape) (datax datay dataz : List K) (rx ry rz : K × K) (xb yb zb : ℕ)
    (weights : Option (List K)) (ha : Args3 spacing datax datay dataz rx ry rz xb yb zb weights)
    (hz : ∀ d ∈ dataz, Inside s zb (scaled rz zb d)) :
    histogram2d spacing s datax datay rx ry xb yb weights =
      (histogram3d spacing s datax datay dataz rx ry rz xb yb zb weights).map
        fun r => (r.1.map (fun m => m.map List.sum), r.2.1, r.2.2.1) := by
  have hin : ∀ p ∈ (datax.zip (datay.zip dataz)).zip (weightsOf datax.length weights), Inside s zb (scaled rz zb p.1.2.2) :=
    fun p hp => hz _ (List.of_mem_zip (List.of_mem_zip (List.of_mem_zip hp).1).2).2
  have e := (zip3 datax datay dataz (weightsOf datax.length weights) ha.len ha.len').1
  rw [histogram2d_closed spacing s datax datay rx ry xb yb weights ha.len ha.rangex ha.rangey ha.weights.ge,
    histogram3d_closed spacing s datax datay dataz rx ry rz xb yb zb weights ha.len ha.len' ha.rangex ha.rangey ha.rangez ha.weights.ge]
  have hsafe : (∀ p ∈ (datax.zip (datay.zip dataz)).zip (weightsOf datax.length weights),
      (guard2 s xb yb (scaled rx xb p.1.1) (scaled ry yb p.1.2.1) = true →
        Safe s xb (scaled rx xb p.1.1) ∧ Safe s yb (scaled ry yb p.1.2.1))) ↔
      ∀ p ∈ (datax.zip (datay.zip dataz)).zip (weightsOf datax.length weights),
      (guard3 s xb yb zb (scaled rx xb p.1.1) (scaled ry yb p.1.2.1) (scaled rz zb p.1.2.2) = true →
        Safe s xb (scaled rx xb p.1.1) ∧ Safe s yb (scaled ry yb p.1.2.1) ∧ Safe s zb (scaled rz zb p.1.2.2)) := by
    refine forall₂_congr fun p hp => ?_
    rw [guard3_third ha.binsz (hin p hp)]
    have := inside_safe ha.binsz (hin p hp)
    tauto
  have h2 : (∀ p ∈ (datax.zip datay).zip (weightsOf datax.length weights), ∀ w ∈ c2 s xb yb rx ry p,
      (inRange (xb + 2 * supp s) w.1.1 && inRange (yb + 2 * supp s) w.1.2) = true) ↔
      ∀ p ∈ (datax.zip (datay.zip dataz)).zip (weightsOf datax.length weights),
      (guard2 s xb yb (scaled rx xb p.1.1) (scaled ry yb p.1.2.1) = true →
        Safe s xb (scaled rx xb p.1.1) ∧ Safe s yb (scaled ry yb p.1.2.1)) := by
    rw [e]
    simp only [safe2_iff, List.forall_mem_map]
  have h3 : (∀ p ∈ (datax.zip (datay.zip dataz)).zip (weightsOf datax.length weights), ∀ w ∈ c3 s xb yb zb rx ry rz p,
      (inRange (xb + 2 * supp s) w.1.1 && (inRange (yb + 2 * supp s) w.1.2.1 && inRange (zb + 2 * supp s) w.1.2.2)) = true) ↔
      ∀ p ∈ (datax.zip (datay.zip dataz)).zip (weightsOf datax.length weights),
      (guard3 s xb yb zb (scaled rx xb p.1.1) (scaled ry yb p.1.2.1) (scaled rz zb p.1.2.2) = true →
        Safe s xb (scaled rx xb p.1.1) ∧ Safe s yb (scaled ry yb p.1.2.1) ∧ Safe s zb (scaled rz zb p.1.2.2)) := by
    simp only [safe3_iff]
  by_cases hc : ∀ p ∈ (datax.zip (datay.zip dataz)).zip (weightsOf datax.length weights),
      (guard3 s xb yb zb (scaled rx xb p.1.1) (scaled ry yb p.1.2.1) (scaled rz zb p.1.2.2) = true →
        Safe s xb (scaled rx xb p.1.1) ∧ Safe s yb (scaled ry yb p.1.2.1) ∧ Safe s zb (scaled rz zb p.1.2.2))
  · rw [if_pos (h2.2 (hsafe.2 hc)), if_pos (h3.2 hc)]
    simp only [Except.map, grid2, grid3, e, List.map_map, Function.comp_def, wsum_c2', wsum_c3', Except.ok.injEq, Prod.mk.injEq, and_true]
    apply List.map_congr_left; intro i _
    apply List.map_congr_left; intro j _
    rw [sum_swap]
    congr 1
    apply List.map_congr_left; intro p hp
    rw [guard3_third ha.binsz (hin p hp)]
    by_cases hg : guard2 s xb yb (scaled rx xb p.1.1) (scaled ry yb p.1.2.1) = true
    · simp only [if_pos hg, List.sum_map_mul_right, List.sum_map_mul_left]
      rw [sum_w1 ha.binsz (hin p hp), mul_one]
    · simp [if_neg hg]
  · rw [if_neg (fun h => hc (hsafe.1 (h2.1 h))), if_neg (fun h => hc (h3.1 h))]
    rfl

/-- Summing over the second axis. Missing for the full property: with the shapes of order 2 and 3, particles just below the range along the third
axis, see `histogram3d_sum_second_violated`. -/
theorem histogram3d_sum_second_partial (spacing : K → K) (s : Shape) (datax datay dataz : List K) (rx ry rz : K × K) (xb yb zb : ℕ)
    (weights : Option (List K)) (ha : Args3 spacing datax datay dataz rx ry rz xb yb zb weights)
    (hy : ∀ d ∈ datay, Inside s yb (scaled ry yb d)) (hz : s = .tophat ∨ ∀ d ∈ dataz, Sided s (scaled rz zb d)) :
    histogram2d spacing s datax dataz rx rz xb zb weights =
      (histogram3d spacing s datax datay dataz rx ry rz xb yb zb weights).map
        fun r => (r.1.map (sumFirst zb), r.2.1, r.2.2.2) := by
  have hin : ∀ p ∈ (datax.zip (datay.zip dataz)).zip (weightsOf datax.length weights), Inside s yb (scaled ry yb p.1.2.1) :=
    fun p hp => hy _ (List.of_mem_zip (List.of_mem_zip (List.of_mem_zip hp).1).2).1
  have hzs : ∀ p ∈ (datax.zip (datay.zip dataz)).zip (weightsOf datax.length weights), s = .tophat ∨ Sided s (scaled rz zb p.1.2.2) :=
    fun p hp => hz.imp_right fun h => h _ (List.of_mem_zip (List.of_mem_zip (List.of_mem_zip hp).1).2).2
  have e := (zip3 datax datay dataz (weightsOf datax.length weights) ha.len ha.len').2.1
  rw [histogram2d_closed spacing s datax dataz rx rz xb zb weights ha.len' ha.rangex ha.rangez ha.weights.ge,
    histogram3d_closed spacing s datax datay dataz rx ry rz xb yb zb weights ha.len ha.len' ha.rangex ha.rangey ha.rangez ha.weights.ge]
  have hsafe : (∀ p ∈ (datax.zip (datay.zip dataz)).zip (weightsOf datax.length weights),
      (guard2 s xb zb (scaled rx xb p.1.1) (scaled rz zb p.1.2.2) = true →
        Safe s xb (scaled rx xb p.1.1) ∧ Safe s zb (scaled rz zb p.1.2.2))) ↔
      ∀ p ∈ (datax.zip (datay.zip dataz)).zip (weightsOf datax.length weights),
      (guard3 s xb yb zb (scaled rx xb p.1.1) (scaled ry yb p.1.2.1) (scaled rz zb p.1.2.2) = true →
        Safe s xb (scaled rx xb p.1.1) ∧ Safe s yb (scaled ry yb p.1.2.1) ∧ Safe s zb (scaled rz zb p.1.2.2)) := by
    refine forall₂_congr fun p hp => ?_
    rw [guard3_second ha.binsy (hin p hp) (hzs p hp)]
    have := inside_safe ha.binsy (hin p hp)
    tauto
  have h2 : (∀ p ∈ (datax.zip dataz).zip (weightsOf datax.length weights), ∀ w ∈ c2 s xb zb rx rz p,
      (inRange (xb + 2 * supp s) w.1.1 && inRange (zb + 2 * supp s) w.1.2) = true) ↔
      ∀ p ∈ (datax.zip (datay.zip dataz)).zip (weightsOf datax.length weights),
      (guard2 s xb zb (scaled rx xb p.1.1) (scaled rz zb p.1.2.2) = true →
        Safe s xb (scaled rx xb p.1.1) ∧ Safe s zb (scaled rz zb p.1.2.2)) := by
    rw [e]
    simp only [safe2_iff, List.forall_mem_map]
  have h3 : (∀ p ∈ (datax.zip (datay.zip dataz)).zip (weightsOf datax.length weights), ∀ w ∈ c3 s xb yb zb rx ry rz p,
      (inRange (xb + 2 * supp s) w.1.1 && (inRange (yb + 2 * supp s) w.1.2.1 && inRange (zb + 2 * supp s) w.1.2.2)) = true) ↔
      ∀ p ∈ (datax.zip (datay.zip dataz)).zip (weightsOf datax.length weights),
      (guard3 s xb yb zb (scaled rx xb p.1.1) (scaled ry yb p.1.2.1) (scaled rz zb p.1.2.2) = true →
        Safe s xb (scaled rx xb p.1.1) ∧ Safe s yb (scaled ry yb p.1.2.1) ∧ Safe s zb (scaled rz zb p.1.2.2)) := by
    simp only [safe3_iff]
  by_cases hc : ∀ p ∈ (datax.zip (datay.zip dataz)).zip (weightsOf datax.length weights),
      (guard3 s xb yb zb (scaled rx xb p.1.1) (scaled ry yb p.1.2.1) (scaled rz zb p.1.2.2) = true →
        Safe s xb (scaled rx xb p.1.1) ∧ Safe s yb (scaled ry yb p.1.2.1) ∧ Safe s zb (scaled rz zb p.1.2.2))
  · rw [if_pos (h2.2 (hsafe.2 hc)), if_pos (h3.2 hc)]
    simp only [Except.map, grid2, grid3, sumFirst, e, List.map_map, Function.comp_def, wsum_c2', wsum_c3', Except.ok.injEq, Prod.mk.injEq,
      and_true]
    apply List.map_congr_left; intro i _
    apply List.map_congr_left; intro k hk
    have hk' : k < zb := List.mem_range.1 hk
    simp only [List.getD_eq_getElem?_getD, List.getElem?_map, List.getElem?_range hk', Option.map_some, Option.getD_some]
    rw [sum_swap]
    congr 1
    apply List.map_congr_left; intro p hp
    rw [guard3_second ha.binsy (hin p hp) (hzs p hp)]
    by_cases hg : guard2 s xb zb (scaled rx xb p.1.1) (scaled rz zb p.1.2.2) = true
    · simp only [if_pos hg, List.sum_map_mul_right, List.sum_map_mul_left]
      rw [sum_w1 ha.binsy (hin p hp), mul_one]
    · simp [if_neg hg]
  · rw [if_neg (fun h => hc (hsafe.1 (h2.1 h))), if_neg (fun h => hc (h3.1 h))]
    rfl

/-- Summing over the first axis. Missing for the full property: particles just below the range along the other axes, see
`histogram3d_sum_first_violated`. -/
theorem histogram3d_sum_first_partial (spacing : K → K) (s : Shape) (datax datay dataz : List K) (rx ry rz : K × K) (xb yb zb : ℕ)
    (weights : Option (List K)) (ha : Args3 spacing datax datay dataz rx ry rz xb yb zb weights)
    (hx : ∀ d ∈ datax, Inside s xb (scaled rx xb d)) (hy : ∀ d ∈ datay, Sided s (scaled ry yb d))
    (hz : s = .tophat ∨ ∀ d ∈ dataz, Sided s (scaled rz zb d)) :
    histogram2d spacing s datay dataz ry rz yb zb weights =
      (histogram3d spacing s datax datay dataz rx ry rz xb yb zb weights).map
        fun r => (sumFirst3 yb zb r.1, r.2.2.1, r.2.2.2) := by
  have hin : ∀ p ∈ (datax.zip (datay.zip dataz)).zip (weightsOf datax.length weights), Inside s xb (scaled rx xb p.1.1) :=
    fun p hp => hx _ (List.of_mem_zip (List.of_mem_zip hp).1).1
  have hys : ∀ p ∈ (datax.zip (datay.zip dataz)).zip (weightsOf datax.length weights), Sided s (scaled ry yb p.1.2.1) :=
    fun p hp => hy _ (List.of_mem_zip (List.of_mem_zip (List.of_mem_zip hp).1).2).1
  have hzs : ∀ p ∈ (datax.zip (datay.zip dataz)).zip (weightsOf datax.length weights), s = .tophat ∨ Sided s (scaled rz zb p.1.2.2) :=
    fun p hp => hz.imp_right fun h => h _ (List.of_mem_zip (List.of_mem_zip (List.of_mem_zip hp).1).2).2
  have e := (zip3 datax datay dataz (weightsOf datax.length weights) ha.len ha.len').2.2
  have hw := ha.weights
  rw [histogram2d_closed spacing s datay dataz ry rz yb zb weights (ha.len.symm.trans ha.len') ha.rangey ha.rangez (by rw [← ha.len, hw]),
    histogram3d_closed spacing s datax datay dataz rx ry rz xb yb zb weights ha.len ha.len' ha.rangex ha.rangey ha.rangez ha.weights.ge]
  rw [← ha.len]
  have hsafe : (∀ p ∈ (datax.zip (datay.zip dataz)).zip (weightsOf datax.length weights),
      (guard2 s yb zb (scaled ry yb p.1.2.1) (scaled rz zb p.1.2.2) = true →
        Safe s yb (scaled ry yb p.1.2.1) ∧ Safe s zb (scaled rz zb p.1.2.2))) ↔
      ∀ p ∈ (datax.zip (datay.zip dataz)).zip (weightsOf datax.length weights),
      (guard3 s xb yb zb (scaled rx xb p.1.1) (scaled ry yb p.1.2.1) (scaled rz zb p.1.2.2) = true →
        Safe s xb (scaled rx xb p.1.1) ∧ Safe s yb (scaled ry yb p.1.2.1) ∧ Safe s zb (scaled rz zb p.1.2.2)) := by
    refine forall₂_congr fun p hp => ?_
    rw [guard3_first ha.binsx (hin p hp) (hys p hp) (hzs p hp)]
    have := inside_safe ha.binsx (hin p hp)
    tauto
  have h2 : (∀ p ∈ (datay.zip dataz).zip (weightsOf datax.length weights), ∀ w ∈ c2 s yb zb ry rz p,
      (inRange (yb + 2 * supp s) w.1.1 && inRange (zb + 2 * supp s) w.1.2) = true) ↔
      ∀ p ∈ (datax.zip (datay.zip dataz)).zip (weightsOf datax.length weights),
      (guard2 s yb zb (scaled ry yb p.1.2.1) (scaled rz zb p.1.2.2) = true →
        Safe s yb (scaled ry yb p.1.2.1) ∧ Safe s zb (scaled rz zb p.1.2.2)) := by
    rw [e]
    simp only [safe2_iff, List.forall_mem_map]
  have h3 : (∀ p ∈ (datax.zip (datay.zip dataz)).zip (weightsOf datax.length weights), ∀ w ∈ c3 s xb yb zb rx ry rz p,
      (inRange (xb + 2 * supp s) w.1.1 && (inRange (yb + 2 * supp s) w.1.2.1 && inRange (zb + 2 * supp s) w.1.2.2)) = true) ↔
      ∀ p ∈ (datax.zip (datay.zip dataz)).zip (weightsOf datax.length weights),
      (guard3 s xb yb zb (scaled rx xb p.1.1) (scaled ry yb p.1.2.1) (scaled rz zb p.1.2.2) = true →
        Safe s xb (scaled rx xb p.1.1) ∧ Safe s yb (scaled ry yb p.1.2.1) ∧ Safe s zb (scaled rz zb p.1.2.2)) := by
    simp only [safe3_iff]
  by_cases hc : ∀ p ∈ (datax.zip (datay.zip dataz)).zip (weightsOf datax.length weights),
      (guard3 s xb yb zb (scaled rx xb p.1.1) (scaled ry yb p.1.2.1) (scaled rz zb p.1.2.2) = true →
        Safe s xb (scaled rx xb p.1.1) ∧ Safe s yb (scaled ry yb p.1.2.1) ∧ Safe s zb (scaled rz zb p.1.2.2))
  · rw [if_pos (h2.2 (hsafe.2 hc)), if_pos (h3.2 hc)]
    simp only [Except.map, grid2, grid3, sumFirst3, e, List.map_map, Function.comp_def, wsum_c2', wsum_c3', Except.ok.injEq, Prod.mk.injEq,
      and_true]
    apply List.map_congr_left; intro j hj
    apply List.map_congr_left; intro k hk
    have hj' : j < yb := List.mem_range.1 hj
    have hk' : k < zb := List.mem_range.1 hk
    simp only [List.getD_eq_getElem?_getD, List.getElem?_map, List.getElem?_range hk', List.getElem?_range hj', Option.map_some,
      Option.getD_some]
    rw [sum_swap]
    congr 1
    apply List.map_congr_left; intro p hp
    rw [guard3_first ha.binsx (hin p hp) (hys p hp) (hzs p hp)]
    by_cases hg : guard2 s yb zb (scaled ry yb p.1.2.1) (scaled rz zb p.1.2.2) = true
    · simp only [if_pos hg, List.sum_map_mul_right]
      rw [sum_w1 ha.binsx (hin p hp), one_mul]
    · simp [if_neg hg]
  · rw [if_neg (fun h => hc (hsafe.1 (h2.1 h))), if_neg (fun h => hc (h3.1 h))]
    rfl

example : histogram2d (fun _ => (1 / 1000 : ℚ)) .triangle [-1, 1] [1, 5] (0, 2) (0, 2) 2 2 none =
    (histogram3d (fun _ => (1 / 1000 : ℚ)) .triangle [1, 1] [-1, 1] [1, 5] (0, 2) (0, 2) (0, 2) 2 2 2 none).map
      fun r => (sumFirst3 2 2 r.1, r.2.2.1, r.2.2.2) := by
  apply histogram3d_sum_first_partial
  · exact ⟨rfl, rfl, ⟨by norm_num, by norm_num⟩, ⟨by norm_num, by norm_num⟩, ⟨by norm_num, by norm_num⟩, by norm_num, by norm_num,
      by norm_num, rfl⟩
  · intro d hd; simp at hd
    subst hd
    simp only [Inside, InRange, scaled, radius]; norm_num
  · intro d hd; simp at hd
    rcases hd with rfl | rfl <;> right <;> simp only [scaled, lowest] <;> norm_num
  · right
    intro d hd; simp at hd
    rcases hd with rfl | rfl <;> right <;> simp only [scaled, lowest] <;> norm_num

/-- With triangles a particle below the range along the third axis counts in three dimensions, but not in the histogram of the first and the
third coordinate. -/
theorem histogram3d_sum_second_violated :
    (histogram3d (fun _ => (1 / 1000 : ℚ)) .triangle [1] [1] [-1 / 4] (0, 2) (0, 2) (0, 2) 2 2 2 none).map
        (fun r => r.1.map (sumFirst 2)) = .ok [[3 / 32, 1 / 64], [3 / 32, 1 / 64]] ∧
    histogram2d (fun _ => (1 / 1000 : ℚ)) .triangle [1] [-1 / 4] (0, 2) (0, 2) 2 2 none =
      .ok ([[0, 0], [0, 0]], [0, 1, 2], [0, 1, 2]) := by
  constructor <;> decide +kernel

/-- A particle below the range along the second axis counts in the histogram of the second and third coordinate, but not in three dimensions. -/
theorem histogram3d_sum_first_violated :
    histogram3d (fun _ => (1 / 1000 : ℚ)) .tophat [1 / 2] [-1 / 4] [1 / 2] (0, 1) (0, 1) (0, 1) 1 1 1 none =
      .ok ([[[0]]], [0, 1], [0, 1], [0, 1]) ∧
    histogram2d (fun _ => (1 / 1000 : ℚ)) .tophat [-1 / 4] [1 / 2] (0, 1) (0, 1) 1 1 none =
      .ok ([[1 / 4]], [0, 1], [0, 1]) := by
  constructor <;> decide +kernel

/-! ## Narrow ranges -/

/-- A range narrower than the spacing of the floating point numbers is widened, and then is like any other range: the theorems about
histograms which ask for proper ranges hold with this one. -/
theorem narrow_range {spacing : K → K} {r : K × K} (h : 0 < spacing r.2) : Proper (fun _ => 0) (fixRange spacing r) := by
  refine ⟨?_, abs_nonneg _⟩
  unfold fixRange
  split
  · next h' =>
    have := abs_lt.1 h'
    simp only
    intro he
    linarith
  · next h' =>
    intro he
    rw [he, sub_self, abs_zero] at h'
    exact h' h

theorem fixRange_zero (r : K × K) : fixRange (fun _ => (0 : K)) r = r := by
  unfold fixRange
  rw [if_neg (not_lt.2 (abs_nonneg _))]

/-- One dimension. -/
theorem histogram_narrow (spacing : K → K) (s : Shape) (data : List K) (r : K × K) (bins : ℕ) (weights : Option (List K)) :
    histogram spacing s data r bins weights = histogram (fun _ => 0) s data (fixRange spacing r) bins weights := by
  simp only [histogram, fixRange_zero]

/-- Two dimensions. -/
theorem histogram2d_narrow (spacing : K → K) (s : Shape) (datax datay : List K) (rx ry : K × K) (xb yb : ℕ) (weights : Option (List K)) :
    histogram2d spacing s datax datay rx ry xb yb weights =
      histogram2d (fun _ => 0) s datax datay (fixRange spacing rx) (fixRange spacing ry) xb yb weights := by
  simp only [histogram2d, fixRange_zero]

/-- Three dimensions. -/
theorem histogram3d_narrow (spacing : K → K) (s : Shape) (datax datay dataz : List K) (rx ry rz : K × K) (xb yb zb : ℕ)
    (weights : Option (List K)) :
    histogram3d spacing s datax datay dataz rx ry rz xb yb zb weights =
      histogram3d (fun _ => 0) s datax datay dataz (fixRange spacing rx) (fixRange spacing ry) (fixRange spacing rz) xb yb zb weights := by
  simp only [histogram3d, fixRange_zero]

example : Proper (fun _ => 0) (fixRange (fun _ => (1 / 1000 : ℚ)) (3, 3)) := narrow_range (by norm_num)

/-! ### The theorems applied -/

instance decidableSided (s : Shape) (p : ℚ) : Decidable (Sided s p) := by unfold Sided; infer_instance

example := histogram2d_sum_first_partial _ .triangle _ _ _ _ _ _ _ args2_inside (by decide +kernel) (by decide +kernel)
example := histogram3d_sum_third _ .triangle _ _ _ _ _ _ _ _ _ _ args3_inside (by decide +kernel)
example := histogram3d_sum_second_partial _ .triangle _ _ _ _ _ _ _ _ _ _ args3_inside (by decide +kernel) (.inr (by decide +kernel))
example := histogram_narrow (fun _ => (1 / 1000 : ℚ)) .spline3 [7, 7, 8] (7, 7) 3 none
example := histogram2d_narrow (fun _ => (1 / 1000 : ℚ)) .triangle [7, 7, 8] [1, 2, 3] (7, 7) (0, 4) 3 2 none
example := histogram3d_narrow (fun _ => (1 / 1000 : ℚ)) .triangle [7, 7, 8] [1, 2, 3] [0, 0, 0] (7, 7) (0, 4) (0, 0) 3 2 1 none

end Postpic.Props
