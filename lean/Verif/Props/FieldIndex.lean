import Verif.Lemmas.FieldIndex
import Verif.Props.FieldMoves

/-!
# Indexing a field
-/

set_option autoImplicit false
set_option linter.unusedSectionVars false

namespace Postpic.Props

open Postpic Postpic.Axes Postpic.Fields Postpic.Spec

section
variable {K V : Type} [_root_.Field K] [LinearOrder K] [IsStrictOrderedRing K]

/-- C55: indexing a field with one index per dimension (numbers, coordinates, slices and ranges of
coordinates, in any combination) selects along every dimension what the index means; the axes of
the remaining dimensions consist of the selected points and the nodes around them, transform states
and origins stay with their dimension, and every sample of the result is the sample of the field at
the selected position. Partial: for the indices described by `KeyOk`, see
`field_index_violated`. -/
theorem field_index_partial (spl : Splines K) (f : Field K V) (hf : f.Sound) (key : List (Key K))
    (hlen : key.length = f.shape.length) (h3 : f.shape.length ≤ 3)
    (hk : ∀ (d : ℕ) (ax : Axis K) (k : Key K), f.axes[d]? = some ax → key[d]? = some k →
      KeyOk ax k) :
    ∃ (r : Field K V) (sels : List Sel), f.getitem spl key = .ok r ∧ r.Sound ∧
      sels.length = f.shape.length ∧
      (∀ (d : ℕ) (ax : Axis K) (k : Key K) (sel : Sel), f.axes[d]? = some ax → key[d]? = some k →
        sels[d]? = some sel → KeyMeans ax k sel) ∧
      r.name = f.name ∧ r.unit = f.unit ∧
      r.shape = selShape sels ∧
      List.Forall₂ SubAxis (unflagged (sels.map Sel.isOne) (f.axes.zip sels)) r.axes ∧
      r.ats = unflagged (sels.map Sel.isOne) f.ats ∧
      r.tao = unflagged (sels.map Sel.isOne) f.tao ∧
      ∀ idx, InBounds r.shape idx → r.matrix.at' idx = f.matrix.at' (selIdx sels idx) :=
  getitem_sound spl hf key hlen h3 hk

/-- C55: the wrong number of indices is refused. -/
theorem field_index_count (spl : Splines K) (f : Field K V) (hf : f.Sound) (key : List (Key K))
    (hlen : key.length ≠ f.shape.length) : f.getitem spl key = .error .indexError := by
  unfold Field.getitem
  rw [dims_sound hf, if_pos (by exact_mod_cast hlen)]
  rfl

/-- C55: a number out of range or a coordinate outside of the extent is refused; no sample is made
up. -/
theorem field_index_outside (spl : Splines K) (f : Field K V) (hf : f.Sound) (key : List (Key K))
    (d : ℕ) (ax : Axis K) (hax : f.axes[d]? = some ax)
    (h : (∃ i, key[d]? = some (.int i) ∧ (i < -(ax.len : ℤ) ∨ (ax.len : ℤ) ≤ i)) ∨
      ∃ v, key[d]? = some (.coord v) ∧
        (v < min ax.extent.1 ax.extent.2 ∨ max ax.extent.1 ax.extent.2 < v)) (r : Field K V) :
    f.getitem spl key ≠ .ok r := by
  intro hr
  unfold Field.getitem at hr
  split_ifs at hr with hd
  · cases hr
  obtain ⟨keys, hk, hr⟩ := bind_ok hr
  obtain ⟨picks, hp, hr⟩ := bind_ok hr
  have hk := mapM_ok hk
  have hp := mapM_ok hp
  have step : ∀ k, key[d]? = some k → ∃ nk o, normKey ax k = .ok nk ∧
      pickAxis spl ax nk = .ok o := by
    intro k hkd
    have hz : (f.axes.zip key)[d]? = some (ax, k) := by
      rw [List.getElem?_zip_eq_some]
      exact ⟨hax, hkd⟩
    obtain ⟨hl, hz⟩ := List.getElem?_eq_some_iff.1 hz
    have hk' := List.forall₂_iff_get.1 hk
    have hl2 : d < keys.length := by rw [← hk'.1]; exact hl
    have hn := hk'.2 d hl hl2
    simp only [List.get_eq_getElem] at hn
    rw [hz] at hn
    have hz2 : (f.axes.zip keys)[d]? = some (ax, keys[d]) := by
      rw [List.getElem?_zip_eq_some]
      exact ⟨hax, List.getElem?_eq_getElem hl2⟩
    obtain ⟨hl3, hz2⟩ := List.getElem?_eq_some_iff.1 hz2
    have hp' := List.forall₂_iff_get.1 hp
    have hn2 := hp'.2 d hl3 (by rw [← hp'.1]; exact hl3)
    simp only [List.get_eq_getElem] at hn2
    rw [hz2] at hn2
    exact ⟨_, _, hn, hn2⟩
  rcases h with ⟨i, hi, hout⟩ | ⟨v, hv, hout⟩
  · obtain ⟨nk, o, h1, h2⟩ := step _ hi
    simp only [normKey, Except.ok.injEq] at h1
    subst h1
    have : pyIdx ax.len i = none := by
      unfold pyIdx
      rcases hout with h | h
      · rw [if_neg (by omega), if_neg (by omega)]
      · rw [if_pos (by omega), if_neg (by omega)]
    simp only [pickAxis, this] at h2
    cases h2
  · obtain ⟨nk, o, h1, h2⟩ := step _ hv
    have : ax.insideDomain v = false := by
      unfold Axis.insideDomain
      rcases hout with h | h
      · have h' := not_le.2 h
        simp only [min_le_iff] at h'
        simp [h']
      · have h' := not_le.2 h
        simp only [le_max_iff] at h'
        simp [h']
    simp only [normKey, this, Bool.not_false, if_true] at h1
    cases h1

end

theorem field43_axes (d : ℕ) (ax : Axis ℚ) (h : field43.axes[d]? = some ax) :
    (d = 0 ∧ ax = uniformAxis 0 4 4) ∨ (d = 1 ∧ ax = uniformAxis 0 6 3) := by
  match d with
  | 0 => left; exact ⟨rfl, (Option.some.inj h).symm⟩
  | 1 => right; exact ⟨rfl, (Option.some.inj h).symm⟩
  | (d + 2) => simp [field43] at h

example := field_index_partial midSplines field43 field43_sound
  [.slice ⟨some 1, some (-1), false⟩, .coord (7 / 2)] rfl (by decide) (by
    intro d ax k hax hk
    rcases field43_axes d ax hax with ⟨rfl, rfl⟩ | ⟨rfl, rfl⟩
    · simp only [List.getElem?_cons_zero, Option.some.injEq] at hk
      subst hk
      refine ⟨rfl, ?_, by decide, by decide +kernel⟩
      rintro i ⟨⟩
      decide
    · simp only [List.getElem?_cons_succ, List.getElem?_cons_zero, Option.some.injEq] at hk
      subst hk
      show min (0 : ℚ) 6 ≤ 7 / 2 ∧ (7 / 2 : ℚ) ≤ max 0 6
      norm_num)

example := field_index_partial midSplines field43 field43_sound
  [.range (some 1) (some 3), .int (-1)] rfl (by decide) (by
    intro d ax k hax hk
    rcases field43_axes d ax hax with ⟨rfl, rfl⟩ | ⟨rfl, rfl⟩
    · simp only [List.getElem?_cons_zero, Option.some.injEq] at hk
      subst hk
      refine Or.inl ⟨by decide +kernel, by decide +kernel, by decide +kernel, 3 / 2,
        by decide +kernel, by decide +kernel, by decide +kernel⟩
    · simp only [List.getElem?_cons_succ, List.getElem?_cons_zero, Option.some.injEq] at hk
      subst hk
      exact ⟨by decide +kernel, by decide +kernel⟩)

example : ((field43.getitem midSplines [.range (some 1) (some 3), .int (-1)]).map fun r =>
    (r.shape, values r, r.axes.map fun ax => (ax.extent, ax.grid))) =
    .ok ([2], [102, 202], [((1, 3), [3 / 2, 5 / 2])]) := by
  decide +kernel

example := field_index_count midSplines field43 field43_sound [.int 0] (by decide)

example := field_index_outside midSplines field43 field43_sound [.int 4, .int 0] 0 _ rfl
  (Or.inl ⟨4, rfl, Or.inr (by decide +kernel)⟩)

/-- C55 fails for slices which begin with a negative number or go backward, and for ranges of
coordinates wider than the axis: the last row is selected with an axis of zero width at the upper
end of the domain, the last two rows raise an exception, going backward leaves the coordinates of
the nodes in their old order, and a range around the whole axis raises an exception. -/
theorem field_index_violated :
    ((field43.getitem midSplines [.slice ⟨some (-1), none, false⟩, .int 0]).map fun r =>
      (values r, r.axes.map fun ax => (ax.grid, ax.extent))) = .ok ([300], [([7 / 2], (4, 4))]) ∧
    ((field43.getitem midSplines [.slice ⟨some (-2), none, false⟩, .int 0]).map values)
      = .error .valueError ∧
    ((field43.getitem midSplines [.slice ⟨none, none, true⟩, .int 0]).map fun r =>
      (values r, r.axes.map fun ax => (ax.grid, ax.extent))) =
      .ok ([300, 200, 100, 0], [([7 / 2, 5 / 2, 3 / 2, 1 / 2], (0, 4))]) ∧
    ((field43.getitem midSplines [.range (some (-1)) (some 5), .int 0]).map values)
      = .error .valueError := by
  decide +kernel

end Postpic.Props
