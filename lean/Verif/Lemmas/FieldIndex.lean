import Verif.Spec.FieldIndex
import Verif.Lemmas.AxisSearch
import Verif.Lemmas.FieldReduce

/-!
# Lemmas about indexing a field
-/

set_option autoImplicit false
set_option linter.unusedSectionVars false

namespace Postpic.Fields

open Postpic Postpic.Axes Postpic.Spec

section
variable {K V : Type} [_root_.Field K] [LinearOrder K] [IsStrictOrderedRing K]

/-- The selection as positions. -/
def selPick : Sel → Pick
  | .one k => .one k
  | .part s t => .many ((List.range t).drop s)

theorem selPick_shape (l : List Sel) : pickShape (l.map selPick) = selShape l := by
  induction l with
  | nil => rfl
  | cons a l ih => cases a <;> simp [selPick, pickShape, selShape, ih]

theorem selPick_idx : ∀ (l : List Sel) (idx : List ℕ), InBounds (selShape l) idx →
    pickIdx (l.map selPick) idx = selIdx l idx
  | [], _, _ => rfl
  | .one k :: l, idx, h => by
    simp only [List.map_cons, selPick, pickIdx, selIdx]
    rw [selPick_idx l idx h]
  | .part s t :: l, [], h => by
    have := h.1
    simp [selShape] at this
  | .part s t :: l, i :: idx, h => by
    have h1 : i < t - s := h.2 0 i (t - s) rfl rfl
    have h2 : InBounds (selShape l) idx :=
      ⟨by simpa [selShape] using h.1, fun d j n hj hn => h.2 (d + 1) j n hj hn⟩
    simp only [List.map_cons, selPick, pickIdx, selIdx, List.headD_cons, List.tail_cons]
    rw [selPick_idx l idx h2, List.getD_eq_getElem?_getD, List.getElem?_drop,
      List.getElem?_range (by omega), Option.getD_some]

theorem getSlice_part (spl : Splines K) {ax : Axis K} (hv : ValidAxis ax.gridNode ax.grid ax.extent)
    (start stop : Option ℤ) (hstart : ∀ i, start = some i → 0 ≤ i) (hstop : stop ≠ some 0)
    (hne : sliceFwd (List.range ax.len) start stop ≠ []) :
    ∃ (s t : ℕ) (ax' : Axis K), ax.getSlice spl ⟨start, stop, false⟩ = .ok ax' ∧
      sliceFwd (List.range ax.len) start stop = (List.range t).drop s ∧
      SubAxis (ax, .part s t) ax' := by
  have hne' : sliceFwd ax.grid start stop ≠ [] := by
    have : (sliceFwd ax.grid start stop).length =
        (sliceFwd (List.range ax.len) start stop).length := by
      unfold sliceFwd Axis.len
      simp
    intro h0
    rw [h0, List.length_nil] at this
    exact hne (List.length_eq_zero_iff.1 this.symm)
  obtain ⟨s, t, hst, ht, hall, hnodes⟩ := slice_all ax hv.wf.1 start stop hstart hstop hne'
  have hwf : WellFormedAxis ((ax.gridNode.take (t + 1)).drop s) ((ax.grid.take t).drop s) := by
    have := hv.wf
    rw [wf_iff] at this ⊢
    exact this.imp (fun h => interleave_slice h s t hst.le ht)
      (fun h => interleave_slice h s t hst.le ht)
  obtain ⟨e, h1, h2, h3⟩ := mkAxis_wf spl ax.name ax.unit hwf
  refine ⟨s, t, ⟨ax.name, ax.unit, (ax.gridNode.take (t + 1)).drop s, (ax.grid.take t).drop s, e⟩,
    ?_, ?_, rfl, rfl, hst, ht, rfl, rfl, ⟨hwf, h2, h3⟩⟩
  · unfold Axis.getSlice
    rw [hnodes]
    have hap : Slice.apply ⟨start, stop, false⟩ ax.grid = sliceFwd ax.grid start stop := rfl
    rw [hap, hall _ rfl]
    exact h1
  · rw [hall _ (by simp [Axis.len]), List.take_range]
    have : min t ax.len = t := min_eq_left ht
    rw [this]

theorem extent_increasing {ax : Axis K} (hv : ValidAxis ax.gridNode ax.grid ax.extent)
    (h : ax.extent.1 < ax.extent.2) : Interleave (· < ·) ax.gridNode ax.grid := by
  rcases (wf_iff _ _).1 hv.wf with hi | hi
  · exact hi
  · exfalso
    by_cases h2 : 2 ≤ ax.gridNode.length
    · have := head_last_mono gt_tr (interleave_mono_nodes gt_tr hi) h2 hv.first hv.last
      exact absurd h (not_lt.2 (le_of_lt this))
    · have hl := interleave_length hi
      have : ax.gridNode.length = 1 := by omega
      have hf := hv.first
      have hla := hv.last
      rw [List.length_eq_one_iff] at this
      obtain ⟨x, hx⟩ := this
      rw [hx] at hf hla
      simp at hf hla
      rw [← hf, ← hla] at h
      exact lt_irrefl _ h

theorem extent_decreasing {ax : Axis K} (hv : ValidAxis ax.gridNode ax.grid ax.extent)
    (h : ax.extent.2 < ax.extent.1) : Interleave (· > ·) ax.gridNode ax.grid := by
  rcases (wf_iff _ _).1 hv.wf with hi | hi
  · exfalso
    by_cases h2 : 2 ≤ ax.gridNode.length
    · have := head_last_mono lt_tr (interleave_mono_nodes lt_tr hi) h2 hv.first hv.last
      exact absurd h (not_lt.2 (le_of_lt this))
    · have hl := interleave_length hi
      have : ax.gridNode.length = 1 := by omega
      have hf := hv.first
      have hla := hv.last
      rw [List.length_eq_one_iff] at this
      obtain ⟨x, hx⟩ := this
      rw [hx] at hf hla
      simp at hf hla
      rw [← hf, ← hla] at h
      exact lt_irrefl _ h
  · exact hi

/-- The limits of a range of coordinates as numbers. -/
theorem range_numbers {ax : Axis K} (hv : ValidAxis ax.gridNode ax.grid ax.extent)
    {a b : Option K} (h : KeyOk ax (.range a b)) :
    ∃ s t : ℕ, ax.extentToSlice a b = .ok ⟨some (s : ℤ), some (t : ℤ), false⟩ ∧
      KeyMeans ax (.range a b) (.part s t) ∧ s < t ∧ t ≤ ax.len := by
  simp only [KeyOk] at h
  rcases h with ⟨h1, h2, h3, x, hx, h4⟩ | ⟨h1, h2, h3, x, hx, h4⟩
  · have hi := extent_increasing hv h1
    have hp := pairwise_of_mono lt_tr (interleave_mono_grid lt_tr hi)
    have hs := extentToSlice_ok ax a b
      (by simpa [min_eq_left h1.le, max_eq_right h1.le] using h3) _ _
      (search_inc hv hi _) (search_inc hv hi _)
      (by rw [isReversed_of_inc hv hi, decide_eq_false (not_lt.2 h2)]; rfl)
    have key : ∀ (i : ℕ) (g v : K), ax.grid[i]? = some g →
        (i < (ax.grid.takeWhile fun y => decide (y < v)).length ↔ g < v) := by
      intro i g v hg
      rw [takeWhile_split _ (hp.imp fun {a b} hab hb => by simp at hb ⊢; linarith) i g hg]
      simp
    refine ⟨_, _, hs, ?_, ?_, (List.takeWhile_prefix _).length_le⟩
    · intro i g hg
      rw [← not_lt, key i g _ hg, key i g _ hg, not_lt]
      constructor
      · exact Or.inl
      · rintro (h | h)
        · exact h
        · exact absurd (lt_of_lt_of_le h.2 h.1) (not_lt.2 h2)
    · obtain ⟨i, hil, rfl⟩ := List.mem_iff_getElem.1 hx
      have hg : ax.grid[i]? = some ax.grid[i] := List.getElem?_eq_getElem hil
      have e1 := (key i _ _ hg).2 h4.2
      have e2 := mt (key i _ _ hg).1 (not_lt.2 h4.1)
      omega
  · have hi := extent_decreasing hv h1
    have hp := pairwise_of_mono gt_tr (interleave_mono_grid gt_tr hi)
    have hne : ax.grid ≠ [] := List.ne_nil_of_mem hx
    have hs := extentToSlice_ok ax a b
      (by simpa [min_eq_right h1.le, max_eq_left h1.le] using h3) _ _
      (search_dec hv hi _ hne) (search_dec hv hi _ hne)
      (by rw [isReversed_of_dec hv hi hne, decide_eq_true h2]; rfl)
    have key : ∀ (i : ℕ) (g v : K), ax.grid[i]? = some g →
        (i < (ax.grid.takeWhile fun y => decide (v < y)).length ↔ v < g) := by
      intro i g v hg
      rw [takeWhile_split _ (hp.imp fun {a b} hab hb => by simp at hb hab ⊢; linarith) i g hg]
      simp
    refine ⟨_, _, hs, ?_, ?_, (List.takeWhile_prefix _).length_le⟩
    · intro i g hg
      rw [← not_lt, key i g _ hg, key i g _ hg, not_lt]
      constructor
      · exact Or.inr
      · rintro (h | h)
        · exact absurd (lt_of_le_of_lt h.1 h.2) (not_lt.2 h2.le)
        · exact h
    · obtain ⟨i, hil, rfl⟩ := List.mem_iff_getElem.1 hx
      have hg : ax.grid[i]? = some ax.grid[i] := List.getElem?_eq_getElem hil
      have e1 := (key i _ _ hg).2 h4.2
      have e2 := mt (key i _ _ hg).1 (not_lt.2 h4.1)
      omega

/-- Indexing one dimension. -/
theorem index_one (spl : Splines K) {ax : Axis K} (hv : ValidAxis ax.gridNode ax.grid ax.extent)
    (hpos : 0 < ax.len) {key : Key K} (h : KeyOk ax key) :
    ∃ (nk : NKey) (o : Option (Axis K)) (sel : Sel), normKey ax key = .ok nk ∧
      pickAxis spl ax nk = .ok (o, selPick sel) ∧ KeyMeans ax key sel ∧
      o.isNone = sel.isOne ∧ ∀ ax', o = some ax' → SubAxis (ax, sel) ax' := by
  have one : ∀ (i : ℤ) (k : ℕ), pyIdx ax.len i = some k →
      pickAxis spl ax (.int i) = .ok (none, selPick (.one k)) := by
    intro i k hk
    simp only [pickAxis, hk, selPick]
  have part : ∀ start stop : Option ℤ, (∀ i, start = some i → 0 ≤ i) → stop ≠ some 0 →
      sliceFwd (List.range ax.len) start stop ≠ [] → ∃ (s t : ℕ) (ax' : Axis K),
      pickAxis spl ax (.slice ⟨start, stop, false⟩) = .ok (some ax', selPick (.part s t)) ∧
      sliceFwd (List.range ax.len) start stop = (List.range t).drop s ∧
      SubAxis (ax, .part s t) ax' := by
    intro start stop h1 h2 h3
    obtain ⟨s, t, ax', g1, g2, g3⟩ := getSlice_part spl hv start stop h1 h2 h3
    refine ⟨s, t, ax', ?_, g2, g3⟩
    simp only [pickAxis, g1, bind, Except.bind]
    have : Slice.apply ⟨start, stop, false⟩ (List.range ax.len) =
        sliceFwd (List.range ax.len) start stop := rfl
    rw [this, g2]
    rfl
  cases key with
  | int i =>
    obtain ⟨h1, h2⟩ := h
    have : ∃ k : ℕ, pyIdx ax.len i = some k ∧ (k : ℤ) = if 0 ≤ i then i else i + ax.len := by
      unfold pyIdx
      by_cases h0 : 0 ≤ i
      · rw [if_pos h0, if_pos h2]
        exact ⟨_, rfl, by rw [if_pos h0]; omega⟩
      · rw [if_neg h0, if_pos h1]
        exact ⟨_, rfl, by rw [if_neg h0]; omega⟩
    obtain ⟨k, hk, he⟩ := this
    exact ⟨.int i, none, .one k, rfl, one i k hk, he, rfl, by simp⟩
  | coord v =>
    have hne : ax.grid ≠ [] := List.length_pos_iff.1 hpos
    obtain ⟨i, g, h1, h2, h3⟩ := nearest_correct hv hne v
    have hin : ax.insideDomain v = true := by
      unfold Axis.insideDomain
      have h' : min ax.extent.1 ax.extent.2 ≤ v ∧ v ≤ max ax.extent.1 ax.extent.2 := h
      simpa using h'
    have hil := (List.getElem?_eq_some_iff.1 h2).1
    refine ⟨.int i, none, .one i, ?_, one i i (pyIdx_nat hil), ⟨g, h2, h3⟩, rfl, by simp⟩
    simp only [normKey, hin, Bool.not_true, Bool.false_eq_true, if_false, h1, bind, Except.bind]
    rfl
  | slice s =>
    obtain ⟨start, stop, bw⟩ := s
    obtain ⟨h1, h2, h3, h4⟩ := h
    simp only at h1
    subst h1
    obtain ⟨s, t, ax', g1, g2, g3⟩ := part start stop h2 h3 h4
    refine ⟨_, some ax', .part s t, rfl, g1, g2, rfl, ?_⟩
    rintro ax'' ⟨⟩
    exact g3
  | range a b =>
    obtain ⟨s, t, h1, h2, h3, h4⟩ := range_numbers hv h
    have hsl : sliceFwd (List.range ax.len) (some (s : ℤ)) (some (t : ℤ)) =
        (List.range t).drop s := by
      unfold sliceFwd clampFwd
      simp only [List.length_range]
      rw [if_neg (by omega), if_neg (by omega), Int.toNat_natCast, Int.toNat_natCast,
        min_eq_left h4, min_eq_left (by omega), List.take_range, min_eq_left h4]
    have hlen : ((List.range t).drop s).length = t - s := by simp
    have hne : sliceFwd (List.range ax.len) (some (s : ℤ)) (some (t : ℤ)) ≠ [] := by
      rw [hsl]
      intro h0
      rw [h0, List.length_nil] at hlen
      omega
    obtain ⟨s', t', ax', g1, g2, g3⟩ := part (some (s : ℤ)) (some (t : ℤ))
      (by intro i hi; simp only [Option.some.injEq] at hi; omega)
      (by intro hi; simp only [Option.some.injEq] at hi; omega) hne
    have hst : s' = s ∧ t' = t := by
      rw [hsl] at g2
      have hs't' : s' < t' := g3.2.2.1
      have e1 : ((List.range t).drop s).head? = some s := by
        rw [List.head?_drop, List.getElem?_range h3]
      have e2 : ((List.range t').drop s').head? = some s' := by
        rw [List.head?_drop, List.getElem?_range hs't']
      rw [g2, e2, Option.some.injEq] at e1
      subst e1
      have := congrArg List.length g2
      simp only [List.length_drop, List.length_range] at this
      omega
    obtain ⟨rfl, rfl⟩ := hst
    refine ⟨_, some ax', .part s' t', ?_, g1, h2, rfl, ?_⟩
    · simp only [normKey, h1, bind, Except.bind]
      rfl
    · rintro ax'' ⟨⟩
      exact g3

/-- Indexing all dimensions. -/
theorem index_all (spl : Splines K) : ∀ (axes : List (Axis K)) (key : List (Key K)),
    axes.length = key.length →
    (∀ ax ∈ axes, ValidAxis ax.gridNode ax.grid ax.extent ∧ 0 < ax.len) →
    (∀ (d : ℕ) (ax : Axis K) (k : Key K), axes[d]? = some ax → key[d]? = some k → KeyOk ax k) →
    ∃ (nks : List NKey) (os : List (Option (Axis K))) (sels : List Sel),
      (axes.zip key).mapM (fun p => normKey p.1 p.2) = .ok nks ∧
      (axes.zip nks).mapM (fun p => pickAxis spl p.1 p.2) = .ok (os.zip (sels.map selPick)) ∧
      sels.length = axes.length ∧ os.length = axes.length ∧
      (∀ (d : ℕ) (ax : Axis K) (k : Key K) (sel : Sel), axes[d]? = some ax → key[d]? = some k →
        sels[d]? = some sel → KeyMeans ax k sel) ∧
      os.map Option.isNone = sels.map Sel.isOne ∧
      List.Forall₂ SubAxis (unflagged (sels.map Sel.isOne) (axes.zip sels)) (os.filterMap id)
  | [], [], _, _, _ => ⟨[], [], [], rfl, rfl, rfl, rfl, by simp, rfl, List.Forall₂.nil⟩
  | ax :: axes, k :: key, hl, hv, hk => by
    obtain ⟨nk, o, sel, g1, g2, g3, g4, g5⟩ := index_one spl (hv ax (by simp)).1
      (hv ax (by simp)).2 (hk 0 ax k rfl rfl)
    obtain ⟨nks, os, sels, h1, h2, h3, h4, h5, h6, h7⟩ := index_all spl axes key (by simpa using hl)
      (fun a ha => hv a (by simp [ha])) fun d a k' ha hk' => hk (d + 1) a k' ha hk'
    refine ⟨nk :: nks, o :: os, sel :: sels, ?_, ?_, by simp [h3], by simp [h4], ?_, ?_, ?_⟩
    · rw [List.zip_cons_cons, List.mapM_cons, g1, h1]
      rfl
    · rw [List.zip_cons_cons, List.mapM_cons, g2, h2]
      rfl
    · intro d a k' s ha hk' hs
      cases d with
      | zero =>
        simp only [List.getElem?_cons_zero, Option.some.injEq] at ha hk' hs
        subst ha hk' hs
        exact g3
      | succ d => exact h5 d a k' s ha hk' hs
    · simp [g4, h6]
    · cases o with
      | none =>
        have : sel.isOne = true := g4.symm
        simp only [List.map_cons, this, List.zip_cons_cons, unflagged]
        exact h7
      | some ax' =>
        have : sel.isOne = false := g4.symm
        simp only [List.map_cons, this, List.zip_cons_cons, unflagged]
        exact List.Forall₂.cons (g5 ax' rfl) h7

theorem subAxes_shape : ∀ (axes : List (Axis K)) (sels : List Sel) (axs' : List (Axis K)),
    sels.length = axes.length →
    List.Forall₂ SubAxis (unflagged (sels.map Sel.isOne) (axes.zip sels)) axs' →
    axs'.map Axis.len = selShape sels
  | [], [], axs', _, h => by
    cases h
    rfl
  | ax :: axes, .one k :: sels, axs', hl, h => by
    exact subAxes_shape axes sels axs' (by simpa using hl) h
  | ax :: axes, .part s t :: sels, axs', hl, h => by
    simp only [List.map_cons, Sel.isOne, List.zip_cons_cons, unflagged, Bool.false_eq_true,
      if_false] at h
    cases h with
    | cons h1 h2 =>
      obtain ⟨-, -, h3, h4, h5, -⟩ := h1
      have : s < t ∧ t ≤ ax.grid.length := ⟨h3, h4⟩
      simp only [List.map_cons, selShape, Axis.len, h5, List.length_drop, List.length_take]
      rw [min_eq_left this.2]
      congr 1
      exact subAxes_shape axes sels _ (by simpa using hl) h2

theorem selShape_pos (sels : List Sel) (axes axs' : List (Axis K)) (hl : sels.length = axes.length)
    (h : List.Forall₂ SubAxis (unflagged (sels.map Sel.isOne) (axes.zip sels)) axs') :
    0 ∉ selShape sels := by
  rw [← subAxes_shape axes sels axs' hl h]
  intro h0
  obtain ⟨ax', hm, h0⟩ := List.mem_map.1 h0
  obtain ⟨q, hq⟩ : ∃ q, SubAxis q ax' := by
    obtain ⟨i, hi, rfl⟩ := List.mem_iff_getElem.1 hm
    have := List.forall₂_iff_get.1 h
    exact ⟨_, this.2 i (by rw [this.1]; exact hi) hi⟩
  obtain ⟨ax, sel⟩ := q
  cases sel with
  | one k => exact hq
  | part s t =>
    obtain ⟨-, -, h3, h4, h5, -⟩ := hq
    have : s < t ∧ t ≤ ax.grid.length := ⟨h3, h4⟩
    simp only [Axis.len, h5, List.length_drop, List.length_take] at h0
    omega

/-- Indexing a field, together with the positions. -/
theorem getitem_sound_picks (spl : Splines K) {f : Field K V} (hf : f.Sound) (key : List (Key K))
    (hlen : key.length = f.shape.length) (h3 : f.shape.length ≤ 3)
    (hk : ∀ (d : ℕ) (ax : Axis K) (k : Key K), f.axes[d]? = some ax → key[d]? = some k →
      KeyOk ax k) :
    ∃ (r : Field K V) (sels : List Sel), f.getitem spl key = .ok r ∧ r.Sound ∧
      sels.length = f.shape.length ∧
      (∀ (d : ℕ) (ax : Axis K) (k : Key K) (sel : Sel), f.axes[d]? = some ax → key[d]? = some k →
        sels[d]? = some sel → KeyMeans ax k sel) ∧
      r.name = f.name ∧ r.unit = f.unit ∧
      r.shape = selShape sels ∧
      List.Forall₂ SubAxis (unflagged (sels.map Sel.isOne) (f.axes.zip sels)) r.axes ∧
      r.ats = unflagged (sels.map Sel.isOne) f.ats ∧
      r.tao = unflagged (sels.map Sel.isOne) f.tao ∧
      (∃ (nks : List NKey) (os : List (Option (Axis K))), os.length = f.axes.length ∧
        (f.axes.zip key).mapM (fun p => normKey p.1 p.2) = .ok nks ∧
        (f.axes.zip nks).mapM (fun p => pickAxis spl p.1 p.2) = .ok (os.zip (sels.map selPick))) ∧
      ∀ idx, InBounds r.shape idx → r.matrix.at' idx = f.matrix.at' (selIdx sels idx) := by
  have l4 := ok_axes_length hf.ok
  have hpos : ∀ ax ∈ f.axes, 0 < ax.len := by
    intro ax hax
    rcases Nat.eq_zero_or_pos ax.len with h0 | h0
    · exact absurd (by rw [← hf.ok.lengths, ← h0]; exact List.mem_map_of_mem hax) hf.nonempty
    · exact h0
  obtain ⟨nks, os, sels, h1, h2, h4, h5, h6, h7, h8⟩ := index_all spl f.axes key (by omega)
    (fun ax hax => ⟨hf.valid ax hax, hpos ax hax⟩) hk
  have e1 : (os.zip (sels.map selPick)).map (fun p => p.1.isNone) = sels.map Sel.isOne := by
    rw [← h7]
    have : (fun p : Option (Axis K) × Pick => p.1.isNone) = Option.isNone ∘ Prod.fst := rfl
    rw [this, ← List.map_map, List.map_fst_zip (by simp; omega)]
  have e2 : (os.zip (sels.map selPick)).map (·.2) = sels.map selPick :=
    List.map_snd_zip (by simp; omega)
  have e3 : (os.zip (sels.map selPick)).filterMap (·.1) = os.filterMap id := by
    have : (os.zip (sels.map selPick)).map (·.1) = os := List.map_fst_zip (by simp; omega)
    conv_rhs => rw [← this, List.filterMap_map]
    rfl
  have e4 : (os.filterMap id).map Axis.len = selShape sels := subAxes_shape _ _ _ h4 h8
  have e5 : (selShape sels).length ≤ 3 := by
    have : (selShape sels).length ≤ sels.length := by
      clear * -
      induction sels with
      | nil => simp [selShape]
      | cons a l ih => cases a <;> simp [selShape] <;> omega
    omega
  have hr : f.getitem spl key = .ok { f with
      matrix := f.matrix.pick (sels.map selPick), axes := os.filterMap id,
      ats := keep (sels.map Sel.isOne) f.ats, tao := keep (sels.map Sel.isOne) f.tao } := by
    unfold Field.getitem
    have hd : ¬ (key.length : ℤ) ≠ f.dims := by
      rw [dims_sound hf, hlen]
      simp
    rw [if_neg hd]
    simp only [h1, h2, e1, e2, e3, bind, Except.bind, pure, Except.pure]
    have : checkAxes (f.matrix.pick (sels.map selPick)).shape 0 (os.filterMap id) = .ok () :=
      checkAxes_of_eq (by rw [e4]; exact (selPick_shape sels).symm)
        (by
          have : (f.matrix.pick (sels.map selPick)).shape = selShape sels := selPick_shape sels
          rw [this]; exact e5)
    rw [this]
  refine ⟨_, sels, hr, ⟨?_, ?_, ?_⟩, by omega, h6, rfl, rfl, selPick_shape sels, h8,
    keep_eq _ _, keep_eq _ _, ⟨nks, os, h5, h1, h2⟩, ?_⟩
  · exact getitem_Ok hf.ok hr
  · intro ax' hm
    obtain ⟨i, hi, rfl⟩ := List.mem_iff_getElem.1 hm
    have := List.forall₂_iff_get.1 h8
    have hq := this.2 i (by rw [this.1]; exact hi) hi
    rcases hqe : (unflagged (sels.map Sel.isOne) (f.axes.zip sels)).get
      ⟨i, by rw [this.1]; exact hi⟩ with ⟨ax, sel⟩
    rw [hqe] at hq
    cases sel with
    | one k => exact hq.elim
    | part s t => exact hq.2.2.2.2.2.2
  · have : (f.matrix.pick (sels.map selPick)).shape = selShape sels := selPick_shape sels
    show 0 ∉ (f.matrix.pick (sels.map selPick)).shape
    rw [this]
    exact selShape_pos sels f.axes _ h4 h8
  · intro idx hidx
    have hi : InBounds (selShape sels) idx := by
      have : (f.matrix.pick (sels.map selPick)).shape = selShape sels := selPick_shape sels
      have h' : InBounds (f.matrix.pick (sels.map selPick)).shape idx := hidx
      rwa [this] at h'
    show f.matrix.at' (pickIdx (sels.map selPick) idx) = _
    rw [selPick_idx sels idx hi]

/-- Indexing a field. -/
theorem getitem_sound (spl : Splines K) {f : Field K V} (hf : f.Sound) (key : List (Key K))
    (hlen : key.length = f.shape.length) (h3 : f.shape.length ≤ 3)
    (hk : ∀ (d : ℕ) (ax : Axis K) (k : Key K), f.axes[d]? = some ax → key[d]? = some k →
      KeyOk ax k) :
    ∃ (r : Field K V) (sels : List Sel), f.getitem spl key = .ok r ∧ r.Sound ∧
      sels.length = f.shape.length ∧
      (∀ (d : ℕ) (ax : Axis K) (k : Key K) (sel : Sel), f.axes[d]? = some ax → key[d]? = some k →
        sels[d]? = some sel → KeyMeans ax k sel) ∧
      r.name = f.name ∧ r.unit = f.unit ∧
      r.shape = selShape sels ∧
      List.Forall₂ SubAxis (unflagged (sels.map Sel.isOne) (f.axes.zip sels)) r.axes ∧
      r.ats = unflagged (sels.map Sel.isOne) f.ats ∧
      r.tao = unflagged (sels.map Sel.isOne) f.tao ∧
      ∀ idx, InBounds r.shape idx → r.matrix.at' idx = f.matrix.at' (selIdx sels idx) := by
  obtain ⟨r, sels, g1, g2, g3, g4, g5, g6, g7, g8, g9, g10, _, g11⟩ := getitem_sound_picks spl hf key hlen h3 hk
  exact ⟨r, sels, g1, g2, g3, g4, g5, g6, g7, g8, g9, g10, g11⟩

end

end Postpic.Fields
