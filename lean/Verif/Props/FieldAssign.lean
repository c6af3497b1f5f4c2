import Verif.Lemmas.FieldAssign
import Verif.Props.FieldIndex

/-!
# `KeepDim` and assignments to parts of a field
-/

set_option autoImplicit false
set_option linter.unusedSectionVars false

namespace Postpic.Props

open Postpic Postpic.Axes Postpic.Fields Postpic.Spec

section
variable {K V : Type} [_root_.Field K] [LinearOrder K] [IsStrictOrderedRing K]

theorem sound_axes {f : Field K V} (hf : f.Sound) : ∀ ax ∈ f.axes, ValidAxis ax.gridNode ax.grid ax.extent ∧ 0 < ax.len := by
  intro ax hax
  refine ⟨hf.valid ax hax, ?_⟩
  rcases Nat.eq_zero_or_pos ax.len with h0 | h0
  · exact absurd (by rw [← hf.ok.lengths, ← h0]; exact List.mem_map_of_mem hax) hf.nonempty
  · exact h0

/-- C80: `field[key] = values` changes the samples at the positions which the indices mean to the given values (repeated by the rules of broadcasting), and
nothing else: no other sample, no axis, name, unit, transform state or origin. Values which do not fit are refused. Partial: for the indices described by `ItemOk`;
see `assign_violated`. -/
theorem assign_partial (f : Field K V) (hf : f.Sound) (key : List (Item K)) (hlen : key.length = f.shape.length)
    (hk : ∀ (d : ℕ) (ax : Axis K) (k : Item K), f.axes[d]? = some ax → key[d]? = some k → ItemOk ax k) (values : Arr V) :
    ∃ picks : List Pick, picks.length = f.shape.length ∧
      (∀ (d : ℕ) (ax : Axis K) (k : Item K) (p : Pick), f.axes[d]? = some ax → key[d]? = some k → picks[d]? = some p → ItemMeans ax k p) ∧
      (Fits values.shape (pickShape picks) → ∃ m : Arr V, f.assign key values = .ok { f with matrix := m } ∧ m.shape = f.shape ∧
        (∀ j o, InBounds (pickShape picks) j → Broadcasts values.shape o j → m.at' (pickIdx picks j) = values.at' o) ∧
        ∀ idx, (∀ j, InBounds (pickShape picks) j → pickIdx picks j ≠ idx) → m.at' idx = f.matrix.at' idx) ∧
      (¬ Fits values.shape (pickShape picks) → f.assign key values = .error .valueError) := by
  have hl := ok_axes_length hf.ok
  obtain ⟨nks, picks, h1, h2, h3, h4⟩ := items_pick f.axes key (by omega) (sound_axes hf) hk
  exact ⟨picks, by omega, h4, assign_eq hf key hlen h1 h2 values⟩

/-- C80: the wrong number of indices is refused. -/
theorem assign_count (f : Field K V) (hf : f.Sound) (key : List (Item K)) (hlen : key.length ≠ f.shape.length) (values : Arr V) :
    f.assign key values = .error .indexError := by
  unfold Field.assign
  rw [dims_sound hf, if_pos (by exact_mod_cast hlen)]
  rfl

/-- C80: what was assigned is found again: if `field[key]` exists, then after `field[key] = values` it has these values, with the same axes. -/
theorem assign_get (spl : Splines K) (f : Field K V) (hf : f.Sound) (key : List (Item K)) (r : Field K V) (hr : f.getitems spl key = .ok r)
    (values : Arr V) (hfit : Fits values.shape r.shape) :
    ∃ f' r', f.assign key values = .ok f' ∧ f'.getitems spl key = .ok r' ∧ r'.shape = r.shape ∧ r'.axes = r.axes ∧ r'.ats = r.ats ∧
      r'.tao = r.tao ∧ ∀ j o, InBounds r.shape j → Broadcasts values.shape o j → r'.matrix.at' j = values.at' o := by
  unfold Field.getitems at hr
  split_ifs at hr with hd
  · cases hr
  have hlen : key.length = f.shape.length := by
    rw [dims_sound hf] at hd
    exact_mod_cast not_not.1 hd
  obtain ⟨nks, h1', hr⟩ := bind_ok hr
  obtain ⟨picks, h2, hr⟩ := bind_ok hr
  obtain ⟨u, h3, hr⟩ := bind_ok hr
  cases hr
  have hp := axes_picks spl _ _ _ h2
  obtain ⟨m, g1, g2, g3, g4⟩ := (assign_eq hf key hlen h1' hp values).1 hfit
  refine ⟨_, { f with
      matrix := m.pick (picks.map (·.2)), axes := picks.filterMap (·.1)
      ats := keep (picks.map fun p => p.1.isNone) f.ats, tao := keep (picks.map fun p => p.1.isNone) f.tao }, g1, ?_, rfl, rfl, rfl, rfl, ?_⟩
  · have hd' : ¬ (key.length : ℤ) ≠ ({ f with matrix := m } : Field K V).dims := by
      have : ({ f with matrix := m } : Field K V).dims = f.dims := by
        unfold Field.dims
        rw [show ({ f with matrix := m } : Field K V).shape = f.shape from g2]
      rw [this]
      exact hd
    unfold Field.getitems
    rw [if_neg hd']
    simp only [h1', h2, bind, Except.bind, pure, Except.pure]
    have : checkAxes (m.pick (picks.map (·.2))).shape 0 (picks.filterMap (·.1)) = .ok () := h3
    rw [this]
  · intro j o hj ho
    exact g3 j o hj ho

/-- C55: indexing with `KeepDim`, with slices which mix numbers and coordinates, and with explicit steps. `KeepDim` keeps the dimension: the result has one
point along it, with the nodes around this point. Partial: for the indices described by `GetOk`, see `keepdim_violated`. -/
theorem keepdim_partial (spl : Splines K) (f : Field K V) (hf : f.Sound) (key : List (Item K))
    (hlen : key.length = f.shape.length) (h3 : f.shape.length ≤ 3)
    (hk : ∀ (d : ℕ) (ax : Axis K) (k : Item K), f.axes[d]? = some ax → key[d]? = some k → GetOk ax k) :
    ∃ (r : Field K V) (sels : List Sel), f.getitems spl key = .ok r ∧ r.Sound ∧ sels.length = f.shape.length ∧
      (∀ (d : ℕ) (ax : Axis K) (k : Item K) (sel : Sel), f.axes[d]? = some ax → key[d]? = some k → sels[d]? = some sel →
        ItemMeans ax k sel.positions) ∧
      r.name = f.name ∧ r.unit = f.unit ∧ r.shape = selShape sels ∧
      List.Forall₂ SubAxis (unflagged (sels.map Sel.isOne) (f.axes.zip sels)) r.axes ∧
      r.ats = unflagged (sels.map Sel.isOne) f.ats ∧ r.tao = unflagged (sels.map Sel.isOne) f.tao ∧
      ∀ idx, InBounds r.shape idx → r.matrix.at' idx = f.matrix.at' (selIdx sels idx) := by
  have hl := ok_axes_length hf.ok
  obtain ⟨nks, keys, nks', k0, k1, k2, k3, k4⟩ := items_keys spl f.axes key (by omega) (sound_axes hf) hk
  obtain ⟨r, sels, g1, g2, g3, _, g5, g6, g7, g8, g9, g10, ⟨nks2, os, o1, o2, o3⟩, g11⟩ := getitem_sound_picks spl hf keys (by omega) h3 k4
  have heq : f.getitems spl key = f.getitem spl keys := by
    unfold Field.getitems Field.getitem
    simp only [k1, k2, k3, k0, bind, Except.bind]
  refine ⟨r, sels, by rw [heq]; exact g1, g2, g3, ?_, g5, g6, g7, g8, g9, g10, g11⟩
  rw [k2] at o2
  cases o2
  rw [← k3] at o3
  have hp := axes_picks spl _ _ _ o3
  rw [List.map_snd_zip (by simp; omega)] at hp
  obtain ⟨nks3, picks, q1, q2, q3, q4⟩ := items_pick f.axes key (by omega) (sound_axes hf)
    fun d ax k hax hkk => getOk_itemOk (hk d ax k hax hkk)
  rw [k1] at q1
  cases q1
  rw [hp] at q2
  cases q2
  intro d ax k sel hax hkk hsel
  have : Sel.positions = selPick := by
    funext s
    cases s <;> rfl
  rw [this]
  exact q4 d ax k _ hax hkk (by rw [List.getElem?_map, hsel]; rfl)

/-- C80: numbers out of range, coordinates outside of the extent and ranges of coordinates with a step are refused in assignments. -/
theorem assign_refused (f : Field K V) (hf : f.Sound) (key : List (Item K)) (hlen : key.length = f.shape.length)
    (hk : ∀ (d : ℕ) (ax : Axis K) (k : Item K), f.axes[d]? = some ax → key[d]? = some k → ItemOk ax k ∨ ItemRefused ax k)
    (hex : ∃ (d : ℕ) (ax : Axis K) (k : Item K), f.axes[d]? = some ax ∧ key[d]? = some k ∧ ItemRefused ax k) (values : Arr V) :
    f.assign key values = .error .indexError := by
  have hl := ok_axes_length hf.ok
  have spl : Splines K := ⟨id, id⟩
  have hsplit : ∀ (ax : Axis K) (k : Item K), ItemRefused ax k → normItem ax k = .error .indexError ∨
      ∃ nk, normItem ax k = .ok nk ∧ nk.pick ax.len = .error .indexError := by
    intro ax k h
    rcases item_refused spl h with h | ⟨nk, h1, h2, _⟩
    · exact .inl h
    · exact .inr ⟨nk, h1, h2⟩
  have key2 := two_mapM (fun p : Axis K × Item K => normItem p.1 p.2) (fun p nk => nk.pick p.1.len) .indexError (f.axes.zip key) ?_ ?_
  · have hd : ¬ (key.length : ℤ) ≠ f.dims := by rw [dims_sound hf]; simpa using hlen
    unfold Field.assign
    rw [if_neg hd]
    rcases key2 with h | ⟨ys, h1, h2⟩
    · simp only [h, bind, Except.bind, pure, Except.pure]
    · have hlys : ys.length = f.axes.length := by
        have := (mapM_ok h1).length_eq
        rw [List.length_zip] at this
        omega
      have h3 : (f.shape.zip ys).mapM (fun p : ℕ × NItem => p.2.pick p.1) = .error .indexError := by
        rw [← h2, ← hf.ok.lengths, List.zip_map_left, List.mapM_map]
        have : (f.axes.zip ys) = ((f.axes.zip key).zip ys).map fun q => (q.1.1, q.2) := by
          apply List.ext_getElem
          · simp; omega
          · intro i h1 h2
            simp
        rw [this, List.mapM_map]
        rfl
      simp only [h1, h3, bind, Except.bind, pure, Except.pure]
  · rintro ⟨ax, k⟩ hx
    obtain ⟨d, hd⟩ := List.mem_iff_getElem?.1 hx
    rw [List.getElem?_zip_eq_some] at hd
    rcases hk d ax k hd.1 hd.2 with h | h
    · obtain ⟨h1, h2⟩ := sound_axes hf ax (List.mem_of_getElem? hd.1)
      obtain ⟨nk, p, g1, g2, _⟩ := item_pick h1 h2 h
      exact .inl ⟨nk, p, g1, g2⟩
    · exact .inr (hsplit ax k h)
  · obtain ⟨d, ax, k, h1, h2, h3⟩ := hex
    exact ⟨(ax, k), List.mem_of_getElem? (List.getElem?_zip_eq_some.2 ⟨h1, h2⟩), hsplit ax k h3⟩

/-- C55: the same for `field[key]`. -/
theorem keepdim_refused (spl : Splines K) (f : Field K V) (hf : f.Sound) (key : List (Item K)) (hlen : key.length = f.shape.length)
    (hk : ∀ (d : ℕ) (ax : Axis K) (k : Item K), f.axes[d]? = some ax → key[d]? = some k → GetOk ax k ∨ ItemRefused ax k)
    (hex : ∃ (d : ℕ) (ax : Axis K) (k : Item K), f.axes[d]? = some ax ∧ key[d]? = some k ∧ ItemRefused ax k) :
    f.getitems spl key = .error .indexError := by
  have hl := ok_axes_length hf.ok
  have hsplit : ∀ (ax : Axis K) (k : Item K), ItemRefused ax k → normItem ax k = .error .indexError ∨
      ∃ nk, normItem ax k = .ok nk ∧ itemAxis spl ax nk = .error .indexError := by
    intro ax k h
    rcases item_refused spl h with h | ⟨nk, h1, _, h2⟩
    · exact .inl h
    · exact .inr ⟨nk, h1, h2⟩
  have key2 := two_mapM (fun p : Axis K × Item K => normItem p.1 p.2) (fun p nk => itemAxis spl p.1 nk) .indexError (f.axes.zip key) ?_ ?_
  · have hd : ¬ (key.length : ℤ) ≠ f.dims := by rw [dims_sound hf]; simpa using hlen
    unfold Field.getitems
    rw [if_neg hd]
    rcases key2 with h | ⟨ys, h1, h2⟩
    · simp only [h, bind, Except.bind, pure, Except.pure]
    · have hlys : ys.length = f.axes.length := by
        have := (mapM_ok h1).length_eq
        rw [List.length_zip] at this
        omega
      have h3 : (f.axes.zip ys).mapM (fun p : Axis K × NItem => itemAxis spl p.1 p.2) = .error .indexError := by
        rw [← h2]
        have : (f.axes.zip ys) = ((f.axes.zip key).zip ys).map fun q => (q.1.1, q.2) := by
          apply List.ext_getElem
          · simp; omega
          · intro i h1 h2
            simp
        rw [this, List.mapM_map]
        rfl
      simp only [h1, h3, bind, Except.bind, pure, Except.pure]
  · rintro ⟨ax, k⟩ hx
    obtain ⟨d, hd⟩ := List.mem_iff_getElem?.1 hx
    rw [List.getElem?_zip_eq_some] at hd
    rcases hk d ax k hd.1 hd.2 with h | h
    · obtain ⟨h1, h2⟩ := sound_axes hf ax (List.mem_of_getElem? hd.1)
      obtain ⟨nk, key', nk', g1, g2, g3, g4⟩ := item_key spl h1 h2 h
      obtain ⟨nk'', o, sel, q1, q2, _⟩ := index_one spl h1 h2 g4
      rw [g2] at q1
      cases q1
      exact .inl ⟨nk, _, g1, by rw [g3, q2]⟩
    · exact .inr (hsplit ax k h)
  · obtain ⟨d, ax, k, h1, h2, h3⟩ := hex
    exact ⟨(ax, k), List.mem_of_getElem? (List.getElem?_zip_eq_some.2 ⟨h1, h2⟩), hsplit ax k h3⟩

end

/-- The axes and states with the values of a field with two dimensions. -/
def table (f : Field ℚ ℚ) : List (List ℚ) :=
  (List.range (f.shape.getD 0 0)).map fun i => (List.range (f.shape.getD 1 0)).map fun j => f.matrix.at' [i, j]

theorem field43_items (P : Axis ℚ → Item ℚ → Prop) (a b : Item ℚ) (ha : P (uniformAxis 0 4 4) a) (hb : P (uniformAxis 0 6 3) b) :
    ∀ (d : ℕ) (ax : Axis ℚ) (k : Item ℚ), field43.axes[d]? = some ax → [a, b][d]? = some k → P ax k := by
  intro d ax k hax hk
  rcases field43_axes d ax hax with ⟨rfl, rfl⟩ | ⟨rfl, rfl⟩
  · simp only [List.getElem?_cons_zero, Option.some.injEq] at hk
    exact hk ▸ ha
  · simp only [List.getElem?_cons_succ, List.getElem?_cons_zero, Option.some.injEq] at hk
    exact hk ▸ hb

/-- Every second row backward, and the columns from the coordinate 2. -/
example := assign_partial field43 field43_sound
  [.plain (.slice .missing .missing (some (-2))), .plain (.slice (.coord 2) .missing none)] rfl
  (field43_items _ _ _ (by change (some (-2) : Option ℤ) ≠ some 0; decide) ⟨rfl, Or.inl ⟨by decide +kernel, by decide +kernel, by decide +kernel, 3, by decide +kernel, by decide +kernel,
    by decide +kernel⟩⟩) ⟨[2], fun idx => idx.getD 0 0⟩

example : ((field43.assign [.plain (.slice .missing .missing (some (-2))), .plain (.slice (.coord 2) .missing none)]
    ⟨[2], fun idx => -1 - idx.getD 0 0⟩).map table) = .ok [[0, 1, 2], [100, -1, -2], [200, 201, 202], [300, -1, -2]] := by decide +kernel

example : ((field43.assign [.keepDim (.coord (5 / 2)), .plain (.slice .missing .missing none)] ⟨[1, 1, 1], fun _ => -1⟩).map table) =
    .ok [[0, 1, 2], [100, 101, 102], [-1, -1, -1], [300, 301, 302]] := by decide +kernel

example : ((field43.assign [.plain (.int 0), .plain (.slice .missing .missing none)] ⟨[2], fun _ => -1⟩).map table) =
    .error .valueError := by decide +kernel

example := assign_count field43 field43_sound [.plain (.int 0)] (by decide) ⟨[], fun _ => 0⟩

example : ∃ r, field43.getitems midSplines [.keepDim (.int 1), .plain (.slice (.num 1) .missing none)] = .ok r ∧ Fits [2] r.shape := by
  have h : ((field43.getitems midSplines [.keepDim (.int 1), .plain (.slice (.num 1) .missing none)]).map Field.shape) = .ok [1, 2] := by
    decide +kernel
  cases hr : field43.getitems midSplines [.keepDim (.int 1), .plain (.slice (.num 1) .missing none)] with
  | error e => rw [hr] at h; cases h
  | ok r =>
    rw [hr] at h
    refine ⟨r, rfl, ?_⟩
    rw [Except.ok.inj h]
    intro k n h
    rcases k with _ | k
    · exact Or.inr h
    · simp at h

/-- The coordinate 13 is outside of the second axis. -/
example := assign_refused field43 field43_sound [.plain (.int 1), .keepDim (.coord 13)] rfl
  (field43_items _ _ _ (.inl (by constructor <;> decide +kernel)) (.inr (.inr (by decide +kernel))))
  ⟨1, _, _, rfl, rfl, .inr (by decide +kernel)⟩ ⟨[], fun _ => 0⟩

example := keepdim_refused midSplines field43 field43_sound [.plain (.int 1), .plain (.int 3)] rfl
  (field43_items _ _ _ (.inl (by constructor <;> decide +kernel)) (.inr (.inr (by decide +kernel))))
  ⟨1, _, _, rfl, rfl, .inr (by decide +kernel)⟩

example := keepdim_partial midSplines field43 field43_sound [.keepDim (.int 1), .keepDim (.coord 5)] rfl (by decide)
  (field43_items _ _ _ (by constructor <;> decide +kernel) (by constructor <;> decide +kernel))

example : ((field43.getitems midSplines [.keepDim (.int 1), .keepDim (.coord 5)]).map fun r =>
    (r.shape, table r, r.axes.map fun ax => (ax.extent, ax.grid))) = .ok ([1, 1], [[102]], [((1, 2), [3 / 2]), ((4, 6), [5])]) := by
  decide +kernel

/-- C55 violated: `KeepDim` with a negative number selects a point with an axis of zero width before it (`-2`), or raises an IndexError (`-1`); a number
beyond the end raises no IndexError but gives a field without points; other steps than 1 and -1 are refused. -/
theorem keepdim_violated :
    ((field43.getitems midSplines [.keepDim (.int (-2)), .plain (.int 0)]).map fun r => (values r, r.axes.map fun ax => (ax.grid, ax.extent))) =
      .ok ([200], [([5 / 2], (3, 3))]) ∧
    ((field43.getitems midSplines [.keepDim (.int (-1)), .plain (.int 0)]).map values) = .error .indexError ∧
    ((field43.getitems midSplines [.keepDim (.int 4), .plain (.int 0)]).map fun r => (r.shape, r.axes.map fun ax => (ax.grid, ax.extent))) =
      .ok ([0], [([], (4, 4))]) ∧
    ((field43.getitems midSplines [.plain (.slice .missing .missing (some 2)), .plain (.int 0)]).map values) = .error .valueError := by
  decide +kernel

/-- C80 violated: an assignment to `KeepDim(-1)` or to `KeepDim` of a number beyond the end changes nothing, without an exception; a range of coordinates
against the direction of the axis, from 3 to 1, does not contain the points 3/2 and 5/2 between them. -/
theorem assign_violated :
    ((field43.assign [.keepDim (.int (-1)), .plain (.int 0)] ⟨[], fun _ => -1⟩).map table) = .ok (table field43) ∧
    ((field43.assign [.keepDim (.int 4), .plain (.int 0)] ⟨[], fun _ => -1⟩).map table) = .ok (table field43) ∧
    ((field43.assign [.plain (.slice (.coord 3) (.coord 1) none), .plain (.int 0)] ⟨[], fun _ => -1⟩).map table) =
      .ok [[0, 1, 2], [100, 101, 102], [-1, 201, 202], [-1, 301, 302]] := by
  decide +kernel

end Postpic.Props
