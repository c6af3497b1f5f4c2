import Verif.Lemmas.FieldMoves
import Verif.Props.FieldAxes

/-!
# Transposing, flipping and rotating
-/

set_option autoImplicit false
set_option linter.unusedSectionVars false

namespace Postpic.Props

open Postpic Postpic.Axes Postpic.Fields Postpic.Spec

section
variable {K V : Type} [_root_.Field K] [LinearOrder K] [IsStrictOrderedRing K]

/-- C24: every permutation of the dimensions is accepted (negative numbers count from the end), and
dimension `d` of the result is dimension `p d` of the field: shape, values and axes move together.
Partial: transform states and stored origins stay where they are
(`transpose_states_violated`). -/
theorem transpose_moves_partial (f : Field K V) (hf : f.Sound) (l : List ℤ) (p : List ℕ)
    (hl : List.Forall₂ (fun i k => pyIdx f.shape.length i = some k) l p) (hp : p.Nodup)
    (hn : p.length = f.shape.length) :
    ∃ r, f.transpose (some l) = .ok r ∧ r.Sound ∧ f.SameRest r ∧
      Moved f.shape.length (fun d => p.getD d 0) (fun _ => false) f.matrix r.matrix f.axes r.axes := by
  obtain ⟨r, h1, h2, h3, h4⟩ := transpose_sound hf hl hp hn
  exact ⟨r, h1, h3, h2, h4⟩

/-- C24: nothing but permutations is accepted. -/
theorem transpose_accepts_only_permutations (f : Field K V) (hf : f.Sound) (l : List ℤ)
    (r : Field K V) (hr : f.transpose (some l) = .ok r) :
    ∃ p : List ℕ, List.Forall₂ (fun i k => pyIdx f.shape.length i = some k) l p ∧ p.Nodup ∧
      p.length = f.shape.length := by
  unfold Field.transpose at hr
  simp only [Option.getD_some] at hr
  split_ifs at hr
  · cases hr
  obtain ⟨x, _, hr⟩ := bind_ok hr
  obtain ⟨p, hp, hr⟩ := bind_ok hr
  exact ⟨p, normPerm_ok hp⟩

theorem transpose_none (f : Field K V) (hf : f.Sound) :
    f.transpose none = f.transpose (some ((List.range f.shape.length).map Int.ofNat).reverse) := by
  unfold Field.transpose
  simp [dims_sound hf]

/-- C24: without argument the order of the dimensions is reversed. -/
theorem transpose_default_partial (f : Field K V) (hf : f.Sound) :
    ∃ r, f.transpose none = .ok r ∧ r.Sound ∧ f.SameRest r ∧
      Moved f.shape.length (fun d => f.shape.length - 1 - d) (fun _ => false)
        f.matrix r.matrix f.axes r.axes := by
  rw [transpose_none f hf]
  obtain ⟨r, h1, h2, h3, h4⟩ := transpose_moves_partial f hf
    ((List.range f.shape.length).map Int.ofNat).reverse (List.range f.shape.length).reverse
    (by
      rw [← List.map_reverse, List.forall₂_map_left_iff, List.forall₂_same]
      intro k hk
      exact pyIdx_nat (by simpa using hk))
    (by rw [List.nodup_reverse]; exact List.nodup_range) (by simp)
  refine ⟨r, h1, h2, h3, moved_congr h4 ?_ (fun _ _ => rfl)⟩
  intro d hd
  rw [List.getD_eq_getElem?_getD, List.getElem?_reverse (by simpa using hd)]
  simp
  rw [List.getElem?_range (by omega)]
  rfl

/-- C24: transposing with the inverse permutation gives back the field. -/
theorem transpose_inverse (f : Field K V) (hf : f.Sound) (l l' : List ℤ) (p q : List ℕ)
    (hl : List.Forall₂ (fun i k => pyIdx f.shape.length i = some k) l p) (hp : p.Nodup)
    (hn : p.length = f.shape.length)
    (hl' : List.Forall₂ (fun i k => pyIdx f.shape.length i = some k) l' q) (hq : q.Nodup)
    (hn' : q.length = f.shape.length)
    (hinv : ∀ d < f.shape.length, p.getD (q.getD d 0) 0 = d) :
    ∃ r r', f.transpose (some l) = .ok r ∧ r.transpose (some l') = .ok r' ∧ f.Same r' := by
  obtain ⟨r, h1, h2, h3, h4⟩ := transpose_sound hf hl hp hn
  have hs : r.shape.length = f.shape.length := h4.dims'
  obtain ⟨r', g1, g2, _, g4⟩ := transpose_sound h3 (by rw [hs]; exact hl') hq (by rw [hs]; exact hn')
  rw [hs] at g4
  have hqp : IsPerm f.shape.length fun d => q.getD d 0 := by
    refine perm_of_nodup hq hn' ?_
    intro k hk
    obtain ⟨i, hi, rfl⟩ := List.mem_iff_getElem.1 hk
    have := hl'.get (by rw [hl'.length_eq]; exact hi) hi
    exact pyIdx_lt this
  have hm := moved_comp hqp h4 g4
  have hr := moved_refl (m := f.matrix) (ok_axes_length hf.ok)
  have := moved_unique (perm_id _) hr hm (fun d hd => (hinv d hd).symm) (fun _ _ => rfl)
  exact ⟨r, r', h1, g1, ⟨this.1.1.symm, fun idx hidx => (this.1.2 idx (this.1.1 ▸ hidx)).symm⟩,
    this.2.symm, sameRest_trans h2 g2⟩

/-- C24: `swapaxes` exchanges two dimensions. -/
theorem swapaxes_moves_partial (f : Field K V) (hf : f.Sound) (a b : ℤ) (A B : ℕ)
    (ha : pyIdx f.shape.length a = some A) (hb : pyIdx f.shape.length b = some B) :
    ∃ r, f.swapaxes a b = .ok r ∧ r.Sound ∧ f.SameRest r ∧
      Moved f.shape.length (fun d => if d = A then B else if d = B then A else d) (fun _ => false)
        f.matrix r.matrix f.axes r.axes := by
  have hA := pyIdx_lt ha
  have hB := pyIdx_lt hb
  obtain ⟨p1, p2, p3, p4⟩ := rotList hA hB
  have hl : ((List.range f.shape.length).map Int.ofNat).length = f.shape.length := by simp
  have g3 : pySet ((List.range f.shape.length).map Int.ofNat) a b =
      .ok (((List.range f.shape.length).map Int.ofNat).set A b) := pySet_of _ (by rw [hl, ha])
  have g4 : pySet (((List.range f.shape.length).map Int.ofNat).set A b) b a =
      .ok ((((List.range f.shape.length).map Int.ofNat).set A b).set B a) :=
    pySet_of _ (by rw [List.length_set, hl, hb])
  have hfor : List.Forall₂ (fun (i : ℤ) k => pyIdx f.shape.length i = some k)
      ((((List.range f.shape.length).map Int.ofNat).set A b).set B a)
      (((List.range f.shape.length).set A B).set B A) := by
    rw [List.forall₂_iff_get]
    refine ⟨by simp, ?_⟩
    intro i h1 h2
    have := (List.forall₂_iff_get.1 p1).2 i (by simpa using h1) h2
    simp only [List.get_eq_getElem, List.getElem_set] at this ⊢
    by_cases c1 : B = i
    · simp only [c1, if_true]; exact ha
    · simp only [if_neg c1] at this ⊢
      by_cases c2 : A = i
      · simp only [c2, if_true]; exact hb
      · simp only [if_neg c2] at this ⊢
        exact this
  obtain ⟨r, h1, h2, h3, h4⟩ := transpose_sound hf hfor p2 p3
  refine ⟨r, ?_, h3, h2, moved_congr h4 p4 (fun _ _ => rfl)⟩
  unfold Field.swapaxes
  rw [dims_sound hf, Int.toNat_natCast]
  simp only [g3, g4, bind, Except.bind]
  exact h1

/-- C25: `flip` reverses the data and the axis of one dimension and nothing else. -/
theorem flip_moves (spl : Splines K) (f : Field K V) (hf : f.Sound) (axis : ℤ) (k : ℕ)
    (hk : pyIdx f.shape.length axis = some k) :
    ∃ r, f.flip spl axis = .ok r ∧ r.Sound ∧ f.SameRest r ∧
      Moved f.shape.length (fun d => d) (fun d => decide (d = k)) f.matrix r.matrix f.axes r.axes := by
  obtain ⟨r, h1, h2, h3, h4⟩ := flip_sound spl hf hk
  exact ⟨r, h1, h3, h2, h4⟩

/-- C25: flipping twice gives back the field. -/
theorem flip_flip (spl : Splines K) (f : Field K V) (hf : f.Sound) (axis : ℤ) (k : ℕ)
    (hk : pyIdx f.shape.length axis = some k) :
    ∃ r r', f.flip spl axis = .ok r ∧ r.flip spl axis = .ok r' ∧ f.Same r' := by
  obtain ⟨r, h1, h2, h3, h4⟩ := flip_sound spl hf hk
  have hs : r.shape.length = f.shape.length := h4.dims'
  obtain ⟨r', g1, g2, _, g4⟩ := flip_sound spl h3 (axis := axis) (k := k) (by rw [hs]; exact hk)
  rw [hs] at g4
  have := moved_unique (perm_id _) (moved_refl (m := f.matrix) (ok_axes_length hf.ok))
    (moved_comp (perm_id _) h4 g4) (fun _ _ => rfl) (fun d _ => by simp)
  exact ⟨r, r', h1, g1, ⟨this.1.1.symm, fun idx hidx => (this.1.2 idx (this.1.1 ▸ hidx)).symm⟩,
    this.2.symm, sameRest_trans h2 g2⟩

/-- C25: one rotation in the plane of `a` and `b` moves the value at `(i, j)` of the rotated field
from `(j, n - 1 - i)`, as `numpy.rot90` does; the axes move in the same way. -/
theorem rot90_moves_partial (spl : Splines K) (f : Field K V) (hf : f.Sound) (a b : ℤ) (A B : ℕ)
    (ha : pyIdx f.shape.length a = some A) (hb : pyIdx f.shape.length b = some B) (hAB : A ≠ B) :
    ∃ r, f.rot90 spl 1 a b = .ok r ∧ r.Sound ∧ f.SameRest r ∧
      Moved f.shape.length (fun d => if d = A then B else if d = B then A else d)
        (fun d => decide (d = A)) f.matrix r.matrix f.axes r.axes := by
  obtain ⟨r, h1, h2, h3, h4⟩ := rot90_sound spl hf 1 ha hb hAB
  exact ⟨r, h1, h3, h2, moved_congr h4 (fun _ _ => rfl) (fun _ _ => rfl)⟩

/-- C25: rotating by `k` and then by `l` quarter turns is rotating by `k + l`, for all integers. -/
theorem rot90_add (spl : Splines K) (f : Field K V) (hf : f.Sound) (a b : ℤ) (A B : ℕ)
    (ha : pyIdx f.shape.length a = some A) (hb : pyIdx f.shape.length b = some B) (hAB : A ≠ B)
    (k l : ℤ) :
    ∃ r r' r'', f.rot90 spl k a b = .ok r ∧ r.rot90 spl l a b = .ok r' ∧
      f.rot90 spl (k + l) a b = .ok r'' ∧ r''.Same r' := by
  obtain ⟨r, h1, h2, h3, h4⟩ := rot90_sound spl hf k ha hb hAB
  have hs : r.shape.length = f.shape.length := h4.dims'
  obtain ⟨r', g1, g2, _, g4⟩ := rot90_sound spl h3 l (by rw [hs]; exact ha) (by rw [hs]; exact hb) hAB
  rw [hs] at g4
  obtain ⟨r'', e1, e2, _, e4⟩ := rot90_sound spl hf (k + l) ha hb hAB
  have hA := pyIdx_lt ha
  have hB := pyIdx_lt hb
  have hm := moved_comp (rot_perm hA hB l) h4 g4
  have hp : IsPerm f.shape.length fun d => rotPerm A B k (rotPerm A B l d) :=
    ⟨fun d hd => (rot_perm hA hB k).1 _ ((rot_perm hA hB l).1 d hd),
      fun d hd e he h => (rot_perm hA hB l).2 d hd e he
        ((rot_perm hA hB k).2 _ ((rot_perm hA hB l).1 d hd) _ ((rot_perm hA hB l).1 e he) h)⟩
  have := moved_unique hp hm e4 (fun d _ => (rot_add hAB k l d).1) (fun d _ => (rot_add hAB k l d).2)
  have h12 := sameRest_trans h2 g2
  exact ⟨r, r', r'', h1, g1, e1, this.1, this.2, h12.1.trans e2.1.symm, h12.2.1.trans e2.2.1.symm,
    h12.2.2.1.trans e2.2.2.1.symm, h12.2.2.2.trans e2.2.2.2.symm⟩

/-- Rotating `n` times by a quarter turn. -/
def rotTimes (spl : Splines K) (a b : ℤ) : ℕ → Field K V → Res (Field K V)
  | 0, f => .ok f
  | n + 1, f => do rotTimes spl a b n (← f.rot90 spl 1 a b)

/-- C25: `rot90(n)` is `n` rotations by a quarter turn. -/
theorem rot90_iterate (spl : Splines K) (f : Field K V) (hf : f.Sound) (a b : ℤ) (A B : ℕ)
    (ha : pyIdx f.shape.length a = some A) (hb : pyIdx f.shape.length b = some B) (hAB : A ≠ B)
    (n : ℕ) :
    ∃ r r', f.rot90 spl n a b = .ok r ∧ rotTimes spl a b n f = .ok r' ∧ r.Same r' := by
  obtain ⟨r, h1, h2, _, h4⟩ := rot90_sound spl hf n ha hb hAB
  have hA := pyIdx_lt ha
  have hB := pyIdx_lt hb
  have key : ∀ (n : ℕ) (g : Field K V), g.Sound → g.shape.length = f.shape.length →
      ∃ r', rotTimes spl a b n g = .ok r' ∧ g.SameRest r' ∧
        Moved f.shape.length (rotPerm A B n) (rotFlip A B n) g.matrix r'.matrix g.axes r'.axes := by
    intro n
    induction n with
    | zero =>
      intro g hg hs
      refine ⟨g, rfl, ⟨rfl, rfl, rfl, rfl⟩, ?_⟩
      rw [← hs]
      exact moved_congr (moved_refl (ok_axes_length hg.ok)) (fun _ _ => rfl) (fun _ _ => rfl)
    | succ n ih =>
      intro g hg hs
      obtain ⟨g1, e1, e2, e3, e4⟩ := rot90_sound spl hg 1 (hs ▸ ha) (hs ▸ hb) hAB
      have hs1 : g1.shape.length = g.shape.length := e4.dims'
      obtain ⟨r', i1, i2, i3⟩ := ih g1 e3 (hs1.trans hs)
      rw [hs] at e4
      refine ⟨r', ?_, sameRest_trans e2 i2, ?_⟩
      · simp only [rotTimes, e1, bind, Except.bind]; exact i1
      · refine moved_congr (moved_comp (rot_perm hA hB n) e4 i3) ?_ ?_
        · intro d _
          rw [(rot_add hAB 1 n d).1, add_comm]; push_cast; rfl
        · intro d _
          rw [(rot_add hAB 1 n d).2, add_comm]; push_cast; rfl
  obtain ⟨r', i1, i2, i3⟩ := key n f hf rfl
  have := moved_unique (rot_perm hA hB n) i3 h4 (fun _ _ => rfl) (fun _ _ => rfl)
  exact ⟨r, r', h1, i1, this.1, this.2, i2.1.trans h2.1.symm, i2.2.1.trans h2.2.1.symm,
    i2.2.2.1.trans h2.2.2.1.symm, i2.2.2.2.trans h2.2.2.2.symm⟩

/-- C25: four quarter turns, or any multiple, give back the field. -/
theorem rot90_four (spl : Splines K) (f : Field K V) (hf : f.Sound) (a b : ℤ) (A B : ℕ)
    (ha : pyIdx f.shape.length a = some A) (hb : pyIdx f.shape.length b = some B) (hAB : A ≠ B) :
    ∃ r, rotTimes spl a b 4 f = .ok r ∧ f.Same r := by
  obtain ⟨r, r', h1, h2, h3⟩ := rot90_iterate spl f hf a b A B ha hb hAB 4
  refine ⟨r', h2, ?_⟩
  have hab : a ≠ b := by
    rintro rfl
    rw [ha] at hb
    exact hAB (Option.some.inj hb)
  have hrange : ¬ (a ≥ (f.shape.length : ℤ) ∨ a < -(f.shape.length : ℤ) ∨
      b ≥ (f.shape.length : ℤ) ∨ b < -(f.shape.length : ℤ)) := by
    have := pyIdx_bounds ha
    have := pyIdx_bounds hb
    omega
  have : f.rot90 spl 4 a b = .ok f := by
    unfold Field.rot90
    simp only [if_neg hab, if_neg hrange]
    rfl
  have e : ((4 : ℕ) : ℤ) = 4 := rfl
  rw [e, this] at h1
  cases h1
  exact h3

end

/-! ### Examples -/

theorem field43_sound : field43.Sound := by
  refine ⟨⟨by decide +kernel, by decide +kernel, by decide +kernel⟩, ?_, by decide⟩
  intro ax hax
  simp only [field43, List.mem_cons, List.not_mem_nil, or_false] at hax
  rcases hax with rfl | rfl
  · exact uniform_wf (by norm_num) (by norm_num)
  · exact uniform_wf (by norm_num) (by norm_num)

/-- All values of a field in C order. -/
def values (f : Field ℚ ℚ) : List ℚ :=
  (fibre f.shape (f.shape.map fun _ => true) []).map f.matrix.at'

example : ((field43.rot90 midSplines 1 0 1).map fun f => (f.shape, values f, f.axes.map (·.extent))) =
    .ok ([3, 4], [2, 102, 202, 302, 1, 101, 201, 301, 0, 100, 200, 300], [(6, 0), (0, 4)]) := by
  decide +kernel

example : ((field43.transpose (some [1, -2])).map fun f => (f.shape, values f, f.axes.map (·.extent))) =
    .ok ([3, 4], [0, 100, 200, 300, 1, 101, 201, 301, 2, 102, 202, 302], [(0, 6), (0, 4)]) := by
  decide +kernel

/-- A field which is in the frequency domain along its first dimension only. -/
def fieldMixed : Field ℚ ℚ := { field43 with ats := [some true, some false], tao := [some 5, none] }

/-- C24 fails for transform states and stored origins: after transposing, the dimension in the
frequency domain is the second one, but the field still says it is the first one. -/
theorem transpose_states_violated :
    ((fieldMixed.transpose none).map fun r => (r.axes.map (·.extent), r.ats, r.tao)) =
      .ok ([(0, 6), (0, 4)], [some true, some false], [some 5, none]) := by
  decide +kernel

/-- C25: the same happens to rotations. -/
theorem rot90_states_violated :
    ((fieldMixed.rot90 midSplines 1 0 1).map fun r => (r.axes.map (·.extent), r.ats, r.tao)) =
      .ok ([(6, 0), (0, 4)], [some true, some false], [some 5, none]) := by
  decide +kernel

/-- C24 fails for a list of axes if there is one dimension. -/
theorem transpose_list_violated {K V : Type} [_root_.Field K] [LinearOrder K]
    [IsStrictOrderedRing K] (f : Field K V) (hf : f.Sound) (h : f.shape.length = 1) (l : List ℤ) :
    f.transposeList l = .error .typeError := by
  unfold Field.transposeList
  rw [dims_sound hf, h]
  rfl

/-! ### The theorems applied -/

example := transpose_moves_partial field43 field43_sound [1, -2] [1, 0] (by decide) (by decide) rfl
example := transpose_accepts_only_permutations field43 field43_sound [1, -2] _ rfl
example := transpose_default_partial field43 field43_sound
example := transpose_inverse field43 field43_sound [1, -2] [-1, 0] [1, 0] [1, 0] (by decide) (by decide) rfl (by decide) (by decide) rfl (by decide)
example := swapaxes_moves_partial field43 field43_sound 0 (-1) 0 1 rfl rfl
example := flip_moves midSplines field43 field43_sound (-1) 1 rfl
example := flip_flip midSplines field43 field43_sound (-1) 1 rfl
example := rot90_moves_partial midSplines field43 field43_sound 0 (-1) 0 1 rfl rfl (by decide)
example := rot90_add midSplines field43 field43_sound 0 (-1) 0 1 rfl rfl (by decide) 3 (-5)
example := rot90_iterate midSplines field43 field43_sound 0 (-1) 0 1 rfl rfl (by decide) 7
example := rot90_four midSplines field43 field43_sound 0 (-1) 0 1 rfl rfl (by decide)

end Postpic.Props
