import Mathlib.Data.List.Permutation
import Verif.Lemmas.Compat

/-!
# The replacements of numpy's `moveaxis` and scipy's `tukey`
-/

set_option autoImplicit false

namespace Postpic.Props

open Postpic Postpic.Compat

/-! ## C43: moveaxis -/

/-- C43: for an array with `n` dimensions and different sources and different destinations (counted
from either end), the order of the dimensions is a permutation which puts every source at its
destination and keeps the order of the other dimensions, and the result has the dimensions in this
order. Partial: numpy also refuses numbers which are out of range and repeated destinations, see
`moveaxis_out_of_range_violated` and `moveaxis_repeated_violated`. -/
theorem moveaxis_partial {V : Type} (a : Arr V) (source destination : List ℤ)
    (hn : a.shape ≠ []) (hlen : source.length = destination.length)
    (hs : (source.map fun s => s % (a.shape.length : ℤ)).Nodup)
    (hd : (destination.map fun d => d % (a.shape.length : ℤ)).Nodup) :
    ∃ order : List ℕ, moveaxis a source destination = .ok (a.transpose order) ∧
      order.Perm (List.range a.shape.length) ∧
      (∀ (i : ℕ) (s d : ℤ), source[i]? = some s → destination[i]? = some d →
        order[(d % (a.shape.length : ℤ)).toNat]? = some (s % (a.shape.length : ℤ)).toNat) ∧
      order.filter (fun (i : ℕ) => decide ((i : ℤ) ∉ source.map fun s => s % (a.shape.length : ℤ))) =
        (List.range a.shape.length).filter
          (fun (i : ℕ) => decide ((i : ℤ) ∉ source.map fun s => s % (a.shape.length : ℤ))) := by
  obtain ⟨n, hnn⟩ : ∃ n, n = a.shape.length := ⟨_, rfl⟩
  have hpos : 0 < n := by
    rw [hnn]
    exact List.length_pos_iff.2 hn
  rw [← hnn] at hs hd ⊢
  have hmod : ∀ z : ℤ, 0 ≤ z % (n : ℤ) ∧ z % (n : ℤ) < n := fun z =>
    ⟨Int.emod_nonneg _ (by omega), Int.emod_lt_of_pos _ (by omega)⟩
  let S : List ℕ := source.map fun s => (s % (n : ℤ)).toNat
  let D : List ℕ := destination.map fun d => (d % (n : ℤ)).toNat
  have toNat_nodup : ∀ l : List ℤ, (l.map fun s => s % (n : ℤ)).Nodup →
      (l.map fun s => (s % (n : ℤ)).toNat).Nodup := by
    intro l hl
    have : (l.map fun s => (s % (n : ℤ)).toNat) = (l.map fun s => s % (n : ℤ)).map Int.toNat := by
      rw [List.map_map]
      rfl
    rw [this]
    refine List.Nodup.map_on ?_ hl
    intro x hx y hy hxy
    obtain ⟨x', -, rfl⟩ := List.mem_map.1 hx
    obtain ⟨y', -, rfl⟩ := List.mem_map.1 hy
    have h1 := hmod x'
    have h2 := hmod y'
    omega
  have hS : S.Nodup := toNat_nodup source hs
  have hD : D.Nodup := toNat_nodup destination hd
  have hSn : ∀ s ∈ S, s < n := by
    intro s hs
    obtain ⟨x, -, rfl⟩ := List.mem_map.1 hs
    have := hmod x
    omega
  have hDn : ∀ s ∈ D, s < n := by
    intro s hs
    obtain ⟨x, -, rfl⟩ := List.mem_map.1 hs
    have := hmod x
    omega
  have hSD : D.length = S.length := by simp [S, D, hlen]
  have memS : ∀ i : ℕ, (i : ℤ) ∈ source.map (fun s => s % (n : ℤ)) ↔ i ∈ S := by
    intro i
    simp only [S, List.mem_map]
    constructor
    · rintro ⟨s, h1, h2⟩
      exact ⟨s, h1, by omega⟩
    · rintro ⟨s, h1, h2⟩
      have := hmod s
      exact ⟨s, h1, by omega⟩
  let ps : List (ℕ × ℕ) := (D.zip S).insertionSort pairLe
  have hperm : ps.Perm (D.zip S) := List.perm_insertionSort _ _
  have hps1 : (ps.map (·.1)).Perm D := by
    have := hperm.map (·.1)
    rwa [List.map_fst_zip (by omega)] at this
  have hps2 : (ps.map (·.2)).Perm S := by
    have := hperm.map (·.2)
    rwa [List.map_snd_zip (by omega)] at this
  have hsorted : ps.Pairwise fun p q => p.1 < q.1 := by
    have h1 : ps.Pairwise pairLe := List.pairwise_insertionSort _ _
    have h2 : (ps.map (·.1)).Nodup := hps1.nodup_iff.2 hD
    rw [List.Nodup, List.pairwise_map] at h2
    refine (h1.and h2).imp ?_
    rintro p q ⟨h3, h4⟩
    unfold pairLe at h3
    omega
  have hps_lt : ∀ p ∈ ps, p.1 < n := fun p hp =>
    hDn _ (hps1.mem_iff.1 (List.mem_map_of_mem hp))
  let rest : List ℕ := (List.range n).filter fun i => decide (i ∉ S)
  have hrest := filter_not_mem_length hS hSn
  have hpl : ps.length = S.length := by
    have := hps2.length_eq
    simpa using this
  obtain ⟨g1, -, g3⟩ := insert_all ps rest hsorted (by
    intro i p hp
    have hroom := increasing_room ps hsorted hps_lt i p hp
    have hi := (List.getElem?_eq_some_iff.1 hp).1
    show p.1 ≤ rest.length + i
    simp only [rest]
    omega)
  have g4 := insert_filter S ps rest (by
    intro p hp
    exact hps2.mem_iff.1 (List.mem_map_of_mem hp))
  let order : List ℕ := ps.foldl (fun l p => pyInsert l p.1 p.2) rest
  have hop : order.Perm (List.range n) := by
    refine g3.trans ((hps2.append_right rest).trans ?_)
    refine (List.perm_ext_iff_of_nodup ?_ List.nodup_range).2 ?_
    · rw [List.nodup_append]
      refine ⟨hS, List.nodup_range.filter _, ?_⟩
      intro x hx y hy hxy
      simp only [rest, List.mem_filter, decide_eq_true_eq] at hy
      exact hy.2 (hxy ▸ hx)
    · intro i
      simp only [rest, List.mem_append, List.mem_filter, List.mem_range, decide_eq_true_eq]
      constructor
      · rintro (h | h)
        · exact hSn i h
        · exact h.1
      · intro h
        by_cases hi : i ∈ S
        · exact Or.inl hi
        · exact Or.inr ⟨h, hi⟩
  have horder : moveaxisOrder n source destination = .ok order := by
    unfold moveaxisOrder
    rw [if_neg (by omega)]
  refine ⟨order, ?_, hop, ?_, ?_⟩
  · unfold moveaxis
    rw [← hnn, horder]
    simp only [bind, Except.bind]
    rw [if_pos ⟨by simpa using hop.length_eq, hop.nodup_iff.2 List.nodup_range, fun i hi => by
      simpa using hop.mem_iff.1 hi⟩]
    rfl
  · intro i s d h1 h2
    have hm : ((d % (n : ℤ)).toNat, (s % (n : ℤ)).toNat) ∈ D.zip S := by
      apply List.mem_of_getElem? (i := i)
      rw [List.getElem?_zip_eq_some]
      simp only [D, S, List.getElem?_map, h1, h2]
      exact ⟨rfl, rfl⟩
    exact g1 _ (hperm.mem_iff.2 hm)
  · have e : (fun i : ℕ => decide ((i : ℤ) ∉ source.map fun s => s % (n : ℤ))) =
        fun i : ℕ => decide (i ∉ S) := by
      funext i
      simp only [memS i]
    rw [e]
    refine g4.trans ?_
    simp only [rest]
    rw [List.filter_filter]
    congr 1
    funext i
    simp

example := moveaxis_partial (⟨[2, 3, 4, 5], fun _ => (0 : ℕ)⟩ : Arr ℕ) [0, 1] [-1, -2] (by decide)
  rfl (by decide) (by decide)

example : (moveaxis (⟨[2, 3, 4, 5], fun _ => (0 : ℕ)⟩ : Arr ℕ) [0, 1] [-1, -2]).map (·.shape) =
    .ok [4, 5, 3, 2] := by decide

example : (moveaxis (⟨[2, 3, 4, 5], fun _ => (0 : ℕ)⟩ : Arr ℕ) [3] [0]).map (·.shape) =
    .ok [5, 2, 3, 4] := by decide

/-- C43 fails for numbers out of range: numpy raises an error for dimension 5 of an array with three
dimensions, the replacement takes it for dimension 2. -/
theorem moveaxis_out_of_range_violated :
    (moveaxis (⟨[2, 3, 4], fun _ => (0 : ℕ)⟩ : Arr ℕ) [5] [0]).map (·.shape) = .ok [4, 2, 3] := by
  decide

/-- C43 fails for repeated destinations: numpy raises an error, the replacement moves only one of
the axes to the destination. -/
theorem moveaxis_repeated_violated :
    (moveaxis (⟨[2, 3, 4], fun _ => (0 : ℕ)⟩ : Arr ℕ) [0, 1] [2, 2]).map (·.shape) =
      .ok [4, 2, 3] := by
  decide

/-! ## C44: the window -/

/-- C44: for every length `M ≥ 0` and every `alpha < 1` the symmetric window has `M` values between
0 and 1, is symmetric, is 1 in its flat part (at least the fraction `1 - alpha`), and does not
decrease from the border to the flat part. Partial: `alpha ≥ 1` fails, see
`tukey_one_violated`. -/
theorem tukey_partial (M : ℕ) (alpha : ℝ) (h1 : alpha < 1) :
    ∃ w : List ℝ, tukey M alpha = .ok w ∧ w.length = M ∧
      (∀ x ∈ w, 0 ≤ x ∧ x ≤ 1) ∧ w.reverse = w ∧
      (∀ i : ℕ, i < M → alpha * ((M : ℝ) - 1) / 2 ≤ i →
        (i : ℝ) ≤ (M : ℝ) - 1 - alpha * ((M : ℝ) - 1) / 2 → w[i]? = some 1) ∧
      (∀ (i j : ℕ) (x y : ℝ), i ≤ j → 2 * j + 1 ≤ M → w[i]? = some x → w[j]? = some y → x ≤ y) := by
  have ones : ∀ n : ℕ, (List.replicate n (1 : ℝ)).length = n ∧
      (∀ x ∈ List.replicate n (1 : ℝ), 0 ≤ x ∧ x ≤ 1) ∧
      (List.replicate n (1 : ℝ)).reverse = List.replicate n (1 : ℝ) ∧
      (∀ i : ℕ, i < n → alpha * ((n : ℝ) - 1) / 2 ≤ i →
        (i : ℝ) ≤ (n : ℝ) - 1 - alpha * ((n : ℝ) - 1) / 2 →
          (List.replicate n (1 : ℝ))[i]? = some 1) ∧
      (∀ (i j : ℕ) (x y : ℝ), i ≤ j → 2 * j + 1 ≤ n → (List.replicate n (1 : ℝ))[i]? = some x →
        (List.replicate n (1 : ℝ))[j]? = some y → x ≤ y) := by
    intro n
    refine ⟨by simp, ?_, by simp, ?_, ?_⟩
    · intro x hx
      rw [List.eq_of_mem_replicate hx]
      norm_num
    · intro i hi _ _
      rw [List.getElem?_replicate, if_pos hi]
    · intro i j x y _ _ hx hy
      have hx := List.eq_of_mem_replicate (List.mem_of_getElem? hx)
      have hy := List.eq_of_mem_replicate (List.mem_of_getElem? hy)
      rw [hx, hy]
  unfold tukey
  rw [if_neg (by omega)]
  by_cases c1 : (M : ℤ) ≤ 1
  · rw [if_pos c1, Int.toNat_natCast]
    exact ⟨_, rfl, ones M⟩
  rw [if_neg c1]
  by_cases c2 : alpha ≤ 0
  · rw [if_pos c2, Int.toNat_natCast]
    exact ⟨_, rfl, ones M⟩
  rw [if_neg c2, if_neg (not_le.2 h1), if_pos rfl, Int.toNat_natCast]
  have hM : 2 ≤ M := by omega
  have h0 : 0 < alpha := not_le.1 c2
  have hM' : (2 : ℝ) ≤ M := by exact_mod_cast hM
  obtain ⟨w, hw, h2, h3, h4⟩ := width_bounds hM h0 h1
  obtain ⟨hlen, hget⟩ := tukeyWindow_get hM h0 h1 hw h2
  have hval : ∀ i < M, (tukeyWindow M alpha)[i]? = some (if i ≤ w then tukeyRise alpha M i
      else if i + w + 2 ≤ M then 1 else tukeyRise alpha M (M - 1 - i)) := by
    intro i hi
    rw [hget i hi, fall_eq_rise' h0 hi hM]
  have hN : 0 < (M : ℝ) - 1 := by linarith
  refine ⟨_, rfl, hlen, ?_, ?_, ?_, ?_⟩
  · intro x hx
    obtain ⟨i, hi, rfl⟩ := List.mem_iff_getElem.1 hx
    have := hval i (by omega)
    rw [List.getElem?_eq_getElem hi, Option.some.injEq] at this
    rw [this]
    split_ifs
    · exact rise_unit alpha M i
    · norm_num
    · exact rise_unit alpha M _
  · apply List.ext_getElem?
    intro i
    by_cases hi : i < M
    · rw [List.getElem?_reverse (by omega), hlen, hval i hi, hval _ (by omega)]
      congr 1
      by_cases c1 : i ≤ w
      · rw [if_pos c1, if_neg (by omega), if_neg (by omega)]
        congr 1
        omega
      · rw [if_neg c1]
        by_cases c2 : i + w + 2 ≤ M
        · rw [if_pos c2, if_neg (by omega), if_pos (by omega)]
        · rw [if_neg c2, if_pos (by omega)]
    · rw [List.getElem?_eq_none (by rw [List.length_reverse]; omega),
        List.getElem?_eq_none (by omega)]
  · intro i hi ha hb
    rw [hval i hi]
    have hedge : ∀ j : ℕ, j ≤ w → alpha * ((M : ℝ) - 1) / 2 ≤ j → tukeyRise alpha M j = 1 := by
      intro j hj hja
      have hjw : (j : ℝ) ≤ w := by exact_mod_cast hj
      have e : (j : ℝ) = alpha * ((M : ℝ) - 1) / 2 := le_antisymm (by linarith) hja
      unfold tukeyRise
      rw [e]
      have : Real.pi * (-1 + 2 * (alpha * ((M : ℝ) - 1) / 2) / alpha / ((M : ℝ) - 1)) = 0 := by
        field_simp
        ring
      rw [this, Real.cos_zero]
      norm_num
    by_cases c1 : i ≤ w
    · rw [if_pos c1, hedge i c1 ha]
    · rw [if_neg c1]
      by_cases c2 : i + w + 2 ≤ M
      · rw [if_pos c2]
      · rw [if_neg c2, hedge (M - 1 - i) (by omega)]
        have : ((M - 1 - i : ℕ) : ℝ) + i + 1 = M := by
          have : M - 1 - i + i + 1 = M := by omega
          exact_mod_cast this
        linarith
  · intro i j x y hij hj hx hy
    rw [hval i (by omega), Option.some.injEq] at hx
    rw [hval j (by omega), Option.some.injEq] at hy
    have hjm : j + w + 2 ≤ M ∨ j ≤ w := by omega
    by_cases c2 : j ≤ w
    · rw [if_pos c2] at hy
      rw [if_pos (by omega)] at hx
      rw [← hx, ← hy]
      unfold tukeyRise
      have key : Real.cos (Real.pi * (-1 + 2 * i / alpha / ((M : ℝ) - 1))) ≤
          Real.cos (Real.pi * (-1 + 2 * j / alpha / ((M : ℝ) - 1))) := by
        have hjw : (j : ℝ) ≤ w := by exact_mod_cast c2
        have hij' : (i : ℝ) ≤ j := by exact_mod_cast hij
        have hj2 : 2 * (j : ℝ) / alpha / ((M : ℝ) - 1) ≤ 1 := by
          rw [div_div, div_le_one (mul_pos h0 hN)]
          linarith
        have hi2 : 2 * (i : ℝ) / alpha / ((M : ℝ) - 1) ≤ 2 * (j : ℝ) / alpha / ((M : ℝ) - 1) := by
          rw [div_div, div_div]
          exact div_le_div_of_nonneg_right (by linarith) (mul_pos h0 hN).le
        have hi0 : 0 ≤ 2 * (i : ℝ) / alpha / ((M : ℝ) - 1) := by positivity
        rw [← Real.cos_neg, ← Real.cos_neg (Real.pi * (-1 + 2 * j / alpha / ((M : ℝ) - 1)))]
        apply Real.cos_le_cos_of_nonneg_of_le_pi
        · have := Real.pi_pos
          nlinarith
        · have := Real.pi_pos
          nlinarith
        · have := Real.pi_pos
          nlinarith
      linarith
    · rw [if_neg c2, if_pos (by omega)] at hy
      rw [← hy, ← hx]
      split_ifs
      · exact (rise_unit alpha M i).2
      · exact le_refl _
      · exact (rise_unit alpha M _).2

example := tukey_partial 10 (1 / 2) (by norm_num)

/-- C44: at its border a window with edges is 0. -/
theorem tukey_border (M : ℕ) (hM : 2 ≤ M) (alpha : ℝ) (h0 : 0 < alpha) (h1 : alpha < 1) :
    ∃ w : List ℝ, tukey M alpha = .ok w ∧ w.head? = some 0 ∧ w.getLast? = some 0 := by
  obtain ⟨v, hv, hlen, -, hsym, -⟩ := tukey_partial M alpha h1
  refine ⟨v, hv, ?_⟩
  have hh : v.head? = some 0 := by
    have hv' := hv
    unfold tukey at hv'
    rw [if_neg (by omega), if_neg (by omega), if_neg (not_le.2 h0), if_neg (not_le.2 h1), if_pos rfl,
      Int.toNat_natCast] at hv'
    obtain ⟨w, hw, h2, -, -⟩ := width_bounds hM h0 h1
    rw [← Except.ok.inj hv', List.head?_eq_getElem?, (tukeyWindow_get hM h0 h1 hw h2).2 0 (by omega),
      if_pos (by omega)]
    unfold tukeyRise
    simp
  refine ⟨hh, ?_⟩
  rw [← hsym, List.getLast?_reverse]
  exact hh

example := tukey_border 10 (by norm_num) (1 / 2) (by norm_num) (by norm_num)

/-- C44: without `sym` the result is the window with one more point, without its last value. -/
theorem tukey_periodic_partial (M : ℕ) (hM : 2 ≤ M) (alpha : ℝ) (h0 : 0 < alpha) (h1 : alpha < 1) :
    ∃ w : List ℝ, tukey ((M + 1 : ℕ) : ℤ) alpha = .ok w ∧
      tukey M alpha (sym := false) = .ok w.dropLast ∧ w.dropLast.length = M := by
  obtain ⟨v, hv, hlen, -⟩ := tukey_partial (M + 1) alpha h1
  refine ⟨v, hv, ?_, by simp [hlen]⟩
  unfold tukey at hv ⊢
  rw [if_neg (by omega), if_neg (by omega), if_neg (not_le.2 h0), if_neg (not_le.2 h1), if_pos rfl,
    Int.toNat_natCast] at hv
  rw [if_neg (by omega), if_neg (by omega), if_neg (not_le.2 h0), if_neg (not_le.2 h1),
    if_neg (by simp), Int.toNat_natCast, Except.ok.inj hv]
  unfold sliceFwd clampFwd
  simp only [if_pos (show (-1 : ℤ) < 0 by decide), List.drop_zero, hlen]
  rw [List.dropLast_eq_take, hlen]
  congr 2
  omega

example := tukey_periodic_partial 10 (by norm_num) (1 / 2) (by norm_num) (by norm_num)

/-- C44 fails for `alpha ≥ 1`: instead of a window the call raises a `NameError` (the function
`hann` is not defined in the module). -/
theorem tukey_one_violated (M : ℕ) (hM : 2 ≤ M) (alpha : ℝ) (h1 : 1 ≤ alpha) (sym : Bool) :
    tukey M alpha sym = .error .nameError := by
  unfold tukey
  rw [if_neg (by omega), if_neg (by omega), if_neg (not_le.2 (by linarith)), if_pos h1]

example := tukey_one_violated 10 (by norm_num) 1 (by norm_num) true

end Postpic.Props
