import Verif.Lemmas.FieldReduce
import Verif.Props.FieldMoves

/-!
# Reductions and integration
-/

set_option autoImplicit false
set_option linter.unusedSectionVars false

namespace Postpic.Props

open Postpic Postpic.Axes Postpic.Fields Postpic.Spec

section
variable {K V : Type} [_root_.Field K] [LinearOrder K] [IsStrictOrderedRing K]

/-- C49: reducing over several dimensions given by non-negative numbers, or over a single one given
by any number, removes exactly these dimensions from shape, axes, states and origins, and the
values are reduced over all positions along them. Partial: see `reduce_negative_violated` for two
negative numbers; more than three remaining dimensions are refused. -/
theorem reduce_removes_partial (spl : Splines K) (red : List V → V) (f : Field K V) (hf : f.Sound)
    (l : List ℤ) (p : List ℕ) (h : List.Forall₂ (fun i k => pyIdx f.shape.length i = some k) l p)
    (hp : p.Nodup) (hpos : (∀ i ∈ l, 0 ≤ i) ∨ l.length ≤ 1)
    (h3 : (unflagged (flags f.shape.length p) f.shape).length ≤ 3) :
    ∃ r, f.reduce spl red (some l) false = .ok r ∧ r.name = f.name ∧ r.unit = f.unit ∧
      r.shape = unflagged (flags f.shape.length p) f.shape ∧
      r.axes = unflagged (flags f.shape.length p) f.axes ∧
      r.ats = unflagged (flags f.shape.length p) f.ats ∧
      r.tao = unflagged (flags f.shape.length p) f.tao ∧
      ∀ idx, r.matrix.at' idx =
        red ((fibre f.shape (flags f.shape.length p) idx).map f.matrix.at') :=
  ⟨_, reduce_sound spl red hf h hp hpos h3, rfl, rfl, keep_eq _ _, rfl, rfl, rfl, fun _ => rfl⟩

/-- C49: without axes everything is reduced; the result has no dimension and no axes. -/
theorem reduce_all (spl : Splines K) (red : List V → V) (f : Field K V) (hf : f.Sound) :
    ∃ r, f.reduce spl red none false = .ok r ∧ r.shape = [] ∧ r.axes = [] ∧ r.ats = [] ∧
      r.tao = [] ∧ r.matrix.at' [] = red ((fibre f.shape (f.shape.map fun _ => true) []).map f.matrix.at') := by
  have hd : f.rangeDims = (List.range f.shape.length).map Int.ofNat := by
    unfold Field.rangeDims
    rw [dims_sound hf, Int.toNat_natCast]
  have hall : ∀ {α : Type} (a : List α), a.length = f.shape.length →
      unflagged (flags f.shape.length (List.range f.shape.length)) a = [] := by
    intro α a ha
    apply List.eq_nil_of_length_eq_zero
    rw [unflagged_count (by rw [flags_length, ha]), flags_all, List.count_replicate]
    rfl
  have hsame : f.reduce spl red none false =
      f.reduce spl red (some ((List.range f.shape.length).map Int.ofNat)) false := by
    unfold Field.reduce
    have : normAxes f.shape.length (some ((List.range f.shape.length).map Int.ofNat)) =
        normAxes f.shape.length none := by
      rw [normAxes_of (p := List.range f.shape.length) _ List.nodup_range, flags_all]
      · rfl
      · rw [List.forall₂_map_left_iff, List.forall₂_same]
        intro i hi
        exact pyIdx_nat (by simpa using hi)
    simp only [Option.getD_none, Option.getD_some, hd, this]
  have hrs := reduce_sound spl red hf (l := (List.range f.shape.length).map Int.ofNat)
    (p := List.range f.shape.length)
    (by
      rw [List.forall₂_map_left_iff, List.forall₂_same]
      intro i hi
      exact pyIdx_nat (by simpa using hi)) List.nodup_range (Or.inl (by
      intro i hi
      rw [List.mem_map] at hi
      obtain ⟨a, _, rfl⟩ := hi
      exact Int.natCast_nonneg a)) (by rw [hall _ rfl]; simp)
  rw [hsame, hrs]
  refine ⟨_, rfl, ?_, hall _ (ok_axes_length hf.ok), hall _ hf.ok.states, hall _ hf.ok.origins, ?_⟩
  · exact (keep_eq _ _).trans (hall _ rfl)
  · have : f.shape.map (fun _ => true) = flags f.shape.length (List.range f.shape.length) := by
      rw [flags_all, List.map_const']
    rw [this]
    rfl

/-- C49: with `keepdims` (axes given by any numbers) the reduced axes become axes with a single
cell and the same extent, all other axes stay. Partial: up to three dimensions. -/
theorem reduce_keepdims_partial (spl : Splines K) (red : List V → V) (f : Field K V) (hf : f.Sound)
    (h3 : f.shape.length ≤ 3)
    (l : List ℤ) (p : List ℕ) (h : List.Forall₂ (fun i k => pyIdx f.shape.length i = some k) l p)
    (hp : p.Nodup) :
    ∃ r, f.reduce spl red (some l) true = .ok r ∧ f.SameRest r ∧ r.axes.length = f.axes.length ∧
      (∀ d : ℕ, r.shape[d]? = (f.shape[d]?).map fun n => if d ∈ p then 1 else n) ∧
      (∀ d : ℕ, r.axes[d]? = (f.axes[d]?).map fun ax => if d ∈ p then singleCell ax else ax) := by
  have hl := ok_axes_length hf.ok
  obtain ⟨axes', h1, h2, h4⟩ := shrinkAxes_eq spl (axes := f.axes) (by rw [hl]; exact h) (by
    intro ax hax
    refine valid_extent_ne (hf.valid ax hax) (Nat.pos_of_ne_zero ?_)
    intro h0
    apply hf.nonempty
    rw [← hf.ok.lengths, List.mem_map]
    exact ⟨ax, hax, h0⟩)
  have hshape : ∀ d : ℕ, (List.zipWith (fun s n => if s then 1 else n) (flags f.shape.length p)
      f.shape)[d]? = (f.shape[d]?).map fun n => if d ∈ p then 1 else n := by
    intro d
    rw [List.getElem?_zipWith]
    by_cases hd : d < f.shape.length
    · rw [flags_get _ _ _ hd, List.getElem?_eq_getElem hd]
      simp
    · rw [List.getElem?_eq_none (by rw [flags_length]; omega), List.getElem?_eq_none (by omega)]
      simp
  refine ⟨⟨f.name, f.unit, f.matrix.reduceKeep red (flags f.shape.length p), axes', f.ats, f.tao⟩,
    ?_, ⟨rfl, rfl, rfl, rfl⟩, h2, hshape, h4⟩
  unfold Field.reduce
  simp only [Option.getD_some, if_true]
  rw [h1, normAxes_of h hp]
  simp only [bind, Except.bind]
  apply mkField_of_eq
  · apply List.ext_getElem?
    intro d
    rw [List.getElem?_map, h4 d]
    show _ = (List.zipWith _ (flags f.shape.length p) f.shape)[d]?
    rw [hshape d, ← hf.ok.lengths, List.getElem?_map]
    cases f.axes[d]? with
    | none => rfl
    | some ax => by_cases hd : d ∈ p <;> simp [hd, singleCell, Axis.len]
  · show (List.zipWith _ (flags f.shape.length p) f.shape).length ≤ 3
    rw [List.length_zipWith, flags_length]
    omega

end

section
variable {K V : Type} [_root_.Field K] [LinearOrder K] [IsStrictOrderedRing K] [AddCommGroup V]
  [Module K V]

/-- C26: the fast method returns, for every list of dimensions in any order, the integral over
these dimensions and the metadata of the others. Partial: dimensions are given by non-negative
numbers (see `integrate_fast_negative_violated`). -/
theorem integrate_fast_partial (f : Field K V) (hf : f.Sound) (dims : List ℕ)
    (hd : ∀ i ∈ dims, i < f.shape.length) :
    ∃ r, f.integrateFast (dims.map Int.ofNat) = .ok r ∧
      r.shape = unflagged (flags f.shape.length dims) f.shape ∧
      r.axes = unflagged (flags f.shape.length dims) f.axes ∧
      r.ats = unflagged (flags f.shape.length dims) f.ats ∧
      r.tao = unflagged (flags f.shape.length dims) f.tao ∧
      ∀ idx, idx.length = r.shape.length → r.matrix.at' idx =
        integral (f.axes.map cellSizes) (flags f.shape.length dims) f.matrix.at' idx := by
  obtain ⟨r, h1, _, _, _, h5, h6, h7, h8, h9⟩ := integrateFast_sound hf hd
  exact ⟨r, h1, h5, h6, h7, h8, h9⟩

/-- C26: the fast and the constant method agree for fields with up to three dimensions (the
constant method refuses more). -/
theorem integrate_fast_eq_constant_partial (spl : Splines K) (f : Field K V) (hf : f.Sound)
    (h3 : f.shape.length ≤ 3) (dims : List ℕ) (hd : ∀ i ∈ dims, i < f.shape.length) :
    ∃ r r', f.integrateFast (dims.map Int.ofNat) = .ok r ∧
      f.integrateConstant spl (dims.map Int.ofNat) = .ok r' ∧ r.Same r' := by
  obtain ⟨r, h1, _, h3', h4, h5, h6, h7, h8, h9⟩ := integrateFast_sound hf hd
  obtain ⟨r', g1, g3, g4, g5, g6, g7, g8, g9⟩ := integrateConstant_sound spl hf h3 hd
  refine ⟨r, r', h1, g1, ⟨g5.trans h5.symm, ?_⟩, g6.trans h6.symm, g3.trans h3'.symm,
    g4.trans h4.symm, g7.trans h7.symm, g8.trans h8.symm⟩
  intro idx hidx
  rw [g9 idx hidx.1, h9 idx (hidx.1.trans (congrArg List.length (g5.trans h5.symm)))]

/-- C26: integration is linear. -/
theorem integrate_linear (f g h : Field K V) (hf : f.Sound) (hg : g.Sound) (hh : h.Sound)
    (hfg : g.axes = f.axes) (hfh : h.axes = f.axes) (c d : K)
    (hval : ∀ idx, InBounds f.shape idx →
      h.matrix.at' idx = c • f.matrix.at' idx + d • g.matrix.at' idx)
    (dims : List ℕ) (hd : ∀ i ∈ dims, i < f.shape.length) :
    ∃ rf rg rh, f.integrateFast (dims.map Int.ofNat) = .ok rf ∧
      g.integrateFast (dims.map Int.ofNat) = .ok rg ∧
      h.integrateFast (dims.map Int.ofNat) = .ok rh ∧
      rf.shape = rh.shape ∧ rg.shape = rh.shape ∧
      ∀ idx, InBounds rh.shape idx →
        rh.matrix.at' idx = c • rf.matrix.at' idx + d • rg.matrix.at' idx := by
  have sg : g.shape = f.shape := by rw [← hg.ok.lengths, ← hf.ok.lengths, hfg]
  have sh : h.shape = f.shape := by rw [← hh.ok.lengths, ← hf.ok.lengths, hfh]
  obtain ⟨rf, f1, f5, _, _, _, f9⟩ := integrate_fast_partial f hf dims hd
  obtain ⟨rg, g1, g5, _, _, _, g9⟩ := integrate_fast_partial g hg dims (by rw [sg]; exact hd)
  obtain ⟨rh, h1, h5, _, _, _, h9⟩ := integrate_fast_partial h hh dims (by rw [sh]; exact hd)
  rw [sg] at g5 g9
  rw [sh] at h5 h9
  refine ⟨rf, rg, rh, f1, g1, h1, f5.trans h5.symm, g5.trans h5.symm, ?_⟩
  intro idx hidx
  have hl := hidx.1
  rw [f9 idx (by rw [hl, h5, f5]), g9 idx (by rw [hl, h5, g5]), h9 idx hl, hfg, hfh]
  rw [← integral_smul, ← integral_smul, ← integral_add]
  have hbs : (f.axes.map cellSizes).map List.length = f.shape := by
    rw [← hf.ok.lengths, List.map_map]
    apply List.map_congr_left
    intro ax hax
    exact cellSizes_length (hf.valid ax hax)
  apply integral_congr
  · rw [flags_length, List.length_map, ok_axes_length hf.ok]
  · rw [hbs]; exact hval
  · rw [hbs, ← h5]; exact hidx

/-- C26: integrating over one dimension and then over others (whose numbers are smaller by one if
they came after it) is integrating over all of them. Together with `integrate_fast_partial` any
order gives the same. -/
theorem integrate_one_after_other (f : Field K V) (hf : f.Sound) (a : ℕ) (dims : List ℕ)
    (ha : a < f.shape.length) (hd : ∀ i ∈ dims, i < f.shape.length) (had : a ∉ dims) :
    ∃ r1 r2 r, f.integrateFast [(a : ℤ)] = .ok r1 ∧
      r1.integrateFast ((dims.map fun i => if a < i then i - 1 else i).map Int.ofNat) = .ok r2 ∧
      f.integrateFast ((a :: dims).map Int.ofNat) = .ok r ∧ r.Same r2 := by
  obtain ⟨r1, h1, h2, h3, h4, h5, h6, h7, h8, h9⟩ := integrateFast_sound hf (L := [a]) (by simpa using ha)
  have hl := ok_axes_length hf.ok
  have hfl0 : flags f.shape.length [a] = (flags (f.shape.length - 1) []).insertIdx a true :=
    flags_insert ha (by simp)
  have hn0 : ∀ {α : Type} (x : List α), x.length = f.shape.length →
      unflagged (flags f.shape.length [a]) x = x.eraseIdx a := by
    intro α x hx
    rw [hfl0, unflagged_insert (by omega) (by rw [flags_length]; omega), unflagged_none]
    rw [List.length_eraseIdx_of_lt (by omega), hx]
  rw [hn0 _ rfl] at h5
  rw [hn0 _ hl] at h6
  rw [hn0 _ hf.ok.states] at h7
  rw [hn0 _ hf.ok.origins] at h8
  have hlen : r1.shape.length = f.shape.length - 1 := by rw [h5, List.length_eraseIdx_of_lt ha]
  have hsd := shiftDown_lt had hd ha
  obtain ⟨r2, g1, g2, g3, g4, g5, g6, g7, g8, g9⟩ := integrateFast_sound h2
    (L := dims.map (shiftDown a)) (by rw [hlen]; exact hsd)
  obtain ⟨r, e1, e2, e3, e4, e5, e6, e7, e8, e9⟩ := integrateFast_sound hf (L := a :: dims)
    (by simpa using ⟨ha, hd⟩)
  rw [hlen] at g5 g6 g7 g8 g9
  have hins := flags_insert ha had
  have hx : ∀ {α : Type} (x : List α), x.length = f.shape.length →
      unflagged (flags f.shape.length (a :: dims)) x =
        unflagged (flags (f.shape.length - 1) (dims.map (shiftDown a))) (x.eraseIdx a) := by
    intro α x hx
    rw [hins, unflagged_insert (by omega) (by rw [flags_length]; omega)]
  have hshape : r2.shape = r.shape := by rw [g5, e5, h5, hx _ rfl]
  refine ⟨r1, r2, r, h1, g1, e1, ⟨hshape, ?_⟩, ?_, ?_, ?_, ?_, ?_⟩
  · intro idx hidx
    rw [g9 idx hidx.1, e9 idx (hidx.1.trans (congrArg List.length hshape)), hins, integral_insert _
      (by rw [flags_length, List.length_map]; omega) (by rw [flags_length]; omega), h6,
      ← List.eraseIdx_map]
    · have hbs : ((f.axes.map cellSizes).eraseIdx a).map List.length = r1.shape := by
        rw [h5, ← List.eraseIdx_map, ← hf.ok.lengths, List.map_map]
        congr 1
        apply List.map_congr_left
        intro ax hax
        exact cellSizes_length (hf.valid ax hax)
      apply integral_congr
      · rw [flags_length, List.length_eraseIdx_of_lt (by simpa [hl] using ha)]
        simp [hl]
      · intro j hj
        rw [hbs] at hj
        rw [h9 j hj.1, hfl0, integral_insert _ (by rw [flags_length, List.length_map]; omega)
          (by rw [flags_length]; omega)]
        · have := integral_none ((f.axes.map cellSizes).eraseIdx a) (fun j =>
            ∑ i ∈ Finset.range ((f.axes.map cellSizes).getD a []).length,
              ((f.axes.map cellSizes).getD a []).getD i 0 • f.matrix.at' (j.insertIdx a i)) j
            (by rw [hj.1, ← hbs]; simp)
          rw [List.length_eraseIdx_of_lt (by simpa [hl] using ha), List.length_map, hl] at this
          exact this
        · rw [hj.1, hlen]
          have := unflagged_count (sel := flags (f.shape.length - 1) []) (l := r1.shape)
            (by rw [flags_length, hlen])
          rw [unflagged_none _ _ hlen, hlen] at this
          exact this
      · rw [hbs, ← g5]; exact hidx
    · have hl2 : idx.length = r2.shape.length := hidx.1
      rw [hl2, g5]
      apply unflagged_count
      rw [flags_length, hlen]
  · rw [g6, e6, h6, hx _ hl]
  · rw [g3, h3, e3]
  · rw [g4, h4, e4]
  · rw [g7, e7, h7, hx _ hf.ok.states]
  · rw [g8, e8, h8, hx _ hf.ok.origins]

end

/-! ### Examples and violations -/

example : ((field43.reduce midSplines List.sum (some [-1]) false).map fun r =>
    (r.shape, values r, r.axes.map (·.extent))) = .ok ([4], [3, 303, 603, 903], [(0, 4)]) := by
  decide +kernel

example : ((field43.reduce midSplines List.sum (some [-1]) true).map fun r =>
    (r.shape, values r, r.axes.map fun ax => (ax.extent, ax.grid))) =
      .ok ([4, 1], [3, 303, 603, 903], [((0, 4), [1 / 2, 3 / 2, 5 / 2, 7 / 2]), ((0, 6), [3])]) := by
  decide +kernel

example : ((field43.integrateFast [0, 1]).map fun r => (r.shape, values r)) =
    .ok ([], [2 * (3 + 303 + 603 + 903)]) := by
  decide +kernel

example : ((field43.integrateConstant midSplines [1]).map fun r => (r.shape, values r)) =
    .ok ([4], [6, 606, 1206, 1806]) := by
  decide +kernel

example := integrate_fast_eq_constant_partial midSplines field43 field43_sound (by decide) [1, 0]
  (by decide)

/-- A field with 2 times 2 times 2 points and different axes; the value at `(i, j, k)` is
`100 i + 10 j + k`. -/
def field222 : Field ℚ ℚ :=
  ⟨"f", "", ⟨[2, 2, 2], fun idx => 100 * idx.getD 0 0 + 10 * idx.getD 1 0 + idx.getD 2 0⟩,
    [uniformAxis 0 2 2, uniformAxis 0 20 2, uniformAxis 0 200 2],
    [some false, some false, some false], [none, none, none]⟩

/-- C49 fails for negative numbers: the sum over the last two axes depends on the first coordinate,
but the result has the axis of the second one. The sum over the first and the last axis, given as
`(-3, 2)`, raises an exception. -/
theorem reduce_negative_violated :
    ((field222.reduce midSplines List.sum (some [-1, -2]) false).map fun r =>
      (values r, r.axes.map (·.extent))) = .ok ([22, 422], [(0, 20)]) ∧
    ((field222.reduce midSplines List.sum (some [1, 2]) false).map fun r =>
      (values r, r.axes.map (·.extent))) = .ok ([22, 422], [(0, 2)]) ∧
    ((field222.reduce midSplines List.sum (some [-3, 2]) false).map fun r => r.shape) =
      .error .indexError := by
  decide +kernel

/-- C26 fails for negative numbers: the fast integral over the last two axes integrates over the
first and the last one; the constant method keeps the wrong axis. -/
theorem integrate_fast_negative_violated :
    ((field222.integrateFast [-1, -2]).map fun r => (values r, r.axes.map (·.extent))) ≠
      ((field222.integrateFast [1, 2]).map fun r => (values r, r.axes.map (·.extent))) ∧
    ((field222.integrateFast [-1, -2]).map fun r => (values r, r.axes.map (·.extent))) ≠
      ((field222.integrateConstant midSplines [-1, -2]).map fun r =>
        (values r, r.axes.map (·.extent))) ∧
    ((field222.integrateConstant midSplines [-1, -2]).map fun r => r.axes.map (·.extent)) =
      .ok [(0, 20)] := by
  decide +kernel

/-! ### The theorems applied -/

example := reduce_removes_partial midSplines List.sum field43 field43_sound [-1] [1] (by decide) (by decide) (.inr (by decide)) (by decide)
example := reduce_all midSplines List.sum field43 field43_sound
example := reduce_keepdims_partial midSplines List.sum field43 field43_sound (by decide) [-1, 0] [1, 0] (by decide) (by decide)
example := integrate_fast_partial field43 field43_sound [1, 0] (by decide)
example := integrate_linear field43 field43 { field43 with matrix := ⟨[4, 3], fun idx => 2 * field43.matrix.at' idx + 3 * field43.matrix.at' idx⟩ }
  field43_sound field43_sound ⟨⟨field43_sound.ok.1, field43_sound.ok.2, field43_sound.ok.3⟩, field43_sound.valid, field43_sound.nonempty⟩ rfl rfl 2 3 (fun _ _ => rfl) [1] (by decide)
example := integrate_one_after_other field43 field43_sound 0 [1] (by decide) (by decide) (by decide)

end Postpic.Props
