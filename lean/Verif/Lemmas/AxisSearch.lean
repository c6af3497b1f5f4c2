import Mathlib.Data.List.TakeWhile
import Verif.Lemmas.Axis

/-!
# Lemmas about searching positions on axes and slicing axes
-/

set_option autoImplicit false
set_option linter.unusedSectionVars false

namespace Postpic.Axes

open Postpic Postpic.Spec

theorem takeWhile_split {α : Type} (p : α → Bool) {l : List α}
    (h : l.Pairwise fun a b => p b = true → p a = true) (j : ℕ) (g : α) (hj : l[j]? = some g) :
    j < (l.takeWhile p).length ↔ p g = true := by
  induction l generalizing j with
  | nil => simp at hj
  | cons a l ih =>
    rw [List.pairwise_cons] at h
    by_cases ha : p a = true
    · rw [List.takeWhile_cons_of_pos ha]
      cases j with
      | zero =>
        simp at hj
        subst hj
        simp [ha]
      | succ j =>
        have := ih h.2 j (by simpa using hj)
        simpa using this
    · rw [List.takeWhile_cons_of_neg ha]
      cases j with
      | zero =>
        simp at hj
        subst hj
        simp [ha]
      | succ j =>
        have hm : g ∈ l := List.mem_of_getElem? (by simpa using hj)
        constructor
        · intro h'; simp at h'
        · intro h'; exact absurd (h.1 g hm h') ha

/-- Taking the elements between two thresholds is a filter. -/
theorem take_drop_filter {α : Type} (p q : α → Bool) {l : List α}
    (hp : l.Pairwise fun a b => p b = true → p a = true)
    (hq : l.Pairwise fun a b => q b = true → q a = true) :
    (l.take (l.takeWhile q).length).drop (l.takeWhile p).length
      = l.filter fun g => !p g && q g := by
  induction l with
  | nil => simp
  | cons a l ih =>
    rw [List.pairwise_cons] at hp hq
    by_cases hqa : q a = true
    · rw [List.takeWhile_cons_of_pos hqa]
      by_cases hpa : p a = true
      · rw [List.takeWhile_cons_of_pos hpa]
        simp [hpa, ih hp.2 hq.2]
      · rw [List.takeWhile_cons_of_neg hpa]
        have hpl : ∀ g ∈ l, p g = false := by
          intro g hg
          cases h : p g with
          | false => rfl
          | true => exact absurd (hp.1 g hg h) hpa
        have := ih hp.2 hq.2
        have e : (l.takeWhile p).length = 0 := by
          cases l with
          | nil => rfl
          | cons b l => simp [hpl b (by simp)]
        rw [e] at this
        simp [hpa, hqa] at this ⊢
        exact this
    · rw [List.takeWhile_cons_of_neg hqa]
      have hql : ∀ g ∈ l, q g = false := by
        intro g hg
        cases h : q g with
        | false => rfl
        | true => exact absurd (hq.1 g hg h) hqa
      simp [hqa]
      intro g hg _
      exact hql g hg

variable {K : Type} [Field K] [LinearOrder K] [IsStrictOrderedRing K]

/-- The invariant of axis objects. -/
abbrev Axis.Valid (ax : Axis K) : Prop := ValidAxis ax.gridNode ax.grid ax.extent

theorem head_last_mono {r : K → K → Prop} (ht : ∀ a b c, r a b → r b c → r a c) {l : List K}
    (h : Mono r l) (hl : 2 ≤ l.length) {a b : K} (ha : l.head? = some a) (hb : l.getLast? = some b) :
    r a b := by
  have hp := pairwise_of_mono ht h
  cases l with
  | nil => simp at ha
  | cons x l =>
    simp at ha
    subst ha
    cases l with
    | nil => simp at hl
    | cons y l =>
      rw [List.pairwise_cons] at hp
      apply hp.1
      rw [List.getLast?_cons_cons] at hb
      exact List.mem_of_getLast? hb

theorem isReversed_of_inc {ax : Axis K} (hv : ax.Valid)
    (h : Interleave (· < ·) ax.gridNode ax.grid) : ax.isReversed = false := by
  have hm := interleave_mono_nodes lt_tr h
  have hl := interleave_length h
  unfold Axis.isReversed
  rw [decide_eq_false_iff_not, not_lt]
  by_cases h2 : 2 ≤ ax.gridNode.length
  · exact le_of_lt (head_last_mono lt_tr hm h2 hv.first hv.last)
  · have : ax.gridNode.length = 1 := by omega
    have hf := hv.first
    have hl := hv.last
    rw [List.length_eq_one_iff] at this
    obtain ⟨x, hx⟩ := this
    rw [hx] at hf hl
    simp at hf hl
    rw [← hf, ← hl]

theorem isReversed_of_dec {ax : Axis K} (hv : ax.Valid)
    (h : Interleave (· > ·) ax.gridNode ax.grid) (hne : ax.grid ≠ []) : ax.isReversed = true := by
  have hm := interleave_mono_nodes gt_tr h
  have hl := interleave_length h
  unfold Axis.isReversed
  rw [decide_eq_true_iff]
  have : 0 < ax.grid.length := List.length_pos_iff.2 hne
  exact head_last_mono gt_tr hm (by omega) hv.first hv.last

theorem isSorted_of_pairwise {l : List K} (h : l.Pairwise (· < ·)) : isSorted l = true := by
  induction l with
  | nil => rfl
  | cons a l ih =>
    rw [List.pairwise_cons] at h
    cases l with
    | nil => rfl
    | cons b l =>
      simp only [isSorted, Bool.and_eq_true, decide_eq_true_eq]
      exact ⟨le_of_lt (h.1 b (by simp)), ih h.2⟩

theorem search_inc {ax : Axis K} (hv : ax.Valid) (h : Interleave (· < ·) ax.gridNode ax.grid) (v : K) :
    ax.search v = .ok (ax.grid.takeWhile fun g => decide (g < v)).length := by
  have hp := pairwise_of_mono lt_tr (interleave_mono_grid lt_tr h)
  unfold Axis.search
  simp [isReversed_of_inc hv h, isSorted_of_pairwise hp, searchLeft]

theorem takeWhile_reverse_length {l : List K} (h : l.Pairwise (· > ·)) (v : K) :
    l.length - (l.reverse.takeWhile fun a => decide (a ≤ v)).length
      = (l.takeWhile fun a => decide (v < a)).length := by
  induction l with
  | nil => rfl
  | cons a l ih =>
    rw [List.pairwise_cons] at h
    have hlen : (l.takeWhile fun a => decide (v < a)).length ≤ l.length :=
      (List.takeWhile_prefix _).length_le
    have hlen2 : (l.reverse.takeWhile fun a => decide (a ≤ v)).length ≤ l.length := by
      simpa using (List.takeWhile_prefix (fun a => decide (a ≤ v)) (l := l.reverse)).length_le
    rw [List.reverse_cons, List.takeWhile_append]
    by_cases hav : a ≤ v
    · have : (l.reverse.takeWhile fun a => decide (a ≤ v)).length = l.reverse.length := by
        have : l.reverse.takeWhile (fun a => decide (a ≤ v)) = l.reverse := by
          rw [List.takeWhile_eq_self_iff]
          intro x hx
          simp at hx
          simpa using le_of_lt (lt_of_lt_of_le (h.1 x hx) hav)
        rw [this]
      rw [if_pos this]
      simp [hav, not_lt.2 hav]
    · have hva : v < a := not_le.1 hav
      have e : (a :: l).takeWhile (fun a => decide (v < a))
          = a :: l.takeWhile (fun a => decide (v < a)) := by
        rw [List.takeWhile_cons_of_pos (by simpa using hva)]
      rw [e, List.length_cons, List.length_cons, ← ih h.2]
      split_ifs with hq
      · simp at hq ⊢; simp [hav]; omega
      · omega

theorem search_dec {ax : Axis K} (hv : ax.Valid) (h : Interleave (· > ·) ax.gridNode ax.grid) (v : K)
    (hne : ax.grid ≠ []) :
    ax.search v = .ok (ax.grid.takeWhile fun g => decide (v < g)).length := by
  have hp := pairwise_of_mono gt_tr (interleave_mono_grid gt_tr h)
  have hs : isSorted ax.grid.reverse = true := isSorted_of_pairwise (by
    rw [List.pairwise_reverse]; exact hp)
  unfold Axis.search
  simp [isReversed_of_dec hv h hne, hs, searchRight, Axis.len, takeWhile_reverse_length hp]

/-- The nearest index, for both directions. `near` holds for the points before the value. -/
theorem nearest_of_split (grid : List K) (v : K) (k : ℕ) (near : K → Bool)
    (hk : ∀ (j : ℕ) (g : K), grid[j]? = some g → (j < k ↔ near g = true)) (hkl : k ≤ grid.length)
    (hne : grid ≠ [])
    (hmono : ∀ (i j : ℕ) (a b : K), i ≤ j → grid[i]? = some a → grid[j]? = some b →
      (near b = true → |v - b| ≤ |v - a|) ∧ (near a = false → |v - a| ≤ |v - b|)) :
    ∃ (i : ℕ) (g : K),
      (if 0 < k then
        if k = grid.length then (.ok (k - 1) : Res ℕ)
        else match grid[k - 1]?, grid[k]? with
          | some a, some b => if |v - a| < |v - b| then .ok (k - 1) else .ok k
          | _, _ => .error .indexError
      else .ok k) = .ok i ∧ grid[i]? = some g ∧
      ∀ (j : ℕ) (g' : K), grid[j]? = some g' → |v - g| ≤ |v - g'| := by
  have hpos : 0 < grid.length := List.length_pos_iff.2 hne
  by_cases h0 : 0 < k
  · have hk1 : k - 1 < grid.length := by omega
    have hga : grid[k - 1]? = some grid[k - 1] := List.getElem?_eq_getElem hk1
    have hna : near grid[k - 1] = true := (hk _ _ hga).1 (by omega)
    rw [if_pos h0]
    by_cases he : k = grid.length
    · refine ⟨k - 1, grid[k - 1], by rw [if_pos he], hga, ?_⟩
      intro j g' hg'
      have hj : j < grid.length := (List.getElem?_eq_some_iff.1 hg').1
      exact (hmono j (k - 1) g' _ (by omega) hg' hga).1 hna
    · rw [if_neg he]
      have hk2 : k < grid.length := by omega
      have hgb : grid[k]? = some grid[k] := List.getElem?_eq_getElem hk2
      have hnb : near grid[k] = false := by
        by_contra h
        have := (hk _ _ hgb).2 (by simpa using h)
        omega
      rw [hga, hgb]
      simp only
      have key : ∀ (j : ℕ) (g' : K), grid[j]? = some g' →
          |v - grid[k - 1]| ≤ |v - g'| ∨ |v - grid[k]| ≤ |v - g'| := by
        intro j g' hg'
        rcases Nat.lt_or_ge j k with hj | hj
        · exact Or.inl ((hmono j (k - 1) g' _ (by omega) hg' hga).1 hna)
        · exact Or.inr ((hmono k j _ g' hj hgb hg').2 hnb)
      by_cases hc : |v - grid[k - 1]| < |v - grid[k]|
      · refine ⟨k - 1, _, if_pos hc, hga, ?_⟩
        intro j g' hg'
        rcases key j g' hg' with h | h
        · exact h
        · exact le_trans (le_of_lt hc) h
      · refine ⟨k, _, if_neg hc, hgb, ?_⟩
        intro j g' hg'
        rcases key j g' hg' with h | h
        · exact le_trans (not_lt.1 hc) h
        · exact h
  · have hk0 : k = 0 := by omega
    subst hk0
    have hgb : grid[0]? = some grid[0] := List.getElem?_eq_getElem hpos
    have hnb : near grid[0] = false := by
      by_contra h
      have := (hk _ _ hgb).2 (by simpa using h)
      omega
    refine ⟨0, _, by rw [if_neg h0], hgb, ?_⟩
    intro j g' hg'
    exact (hmono 0 j _ g' (by omega) hgb hg').2 hnb

theorem findNearest_eq (ax : Axis K) (v : K) (k : ℕ) (hs : ax.search v = .ok k) :
    ax.findNearestIndex v =
      (if 0 < k then
        if k = ax.grid.length then (.ok (k - 1) : Res ℕ)
        else match ax.grid[k - 1]?, ax.grid[k]? with
          | some a, some b => if |v - a| < |v - b| then .ok (k - 1) else .ok k
          | _, _ => .error .indexError
      else .ok k) := by
  unfold Axis.findNearestIndex
  rw [hs]
  simp only [bind, Except.bind, pure, Except.pure, Axis.len]
  by_cases h : k = ax.grid.length
  · simp [h]
  · simp only [h, if_false]
    rfl

theorem pairwise_get {r : K → K → Prop} {l : List K} (h : l.Pairwise r) {i j : ℕ} {a b : K}
    (hij : i < j) (ha : l[i]? = some a) (hb : l[j]? = some b) : r a b := by
  obtain ⟨hi, rfl⟩ := List.getElem?_eq_some_iff.1 ha
  obtain ⟨hj, rfl⟩ := List.getElem?_eq_some_iff.1 hb
  exact List.pairwise_iff_getElem.1 h i j hi hj hij

theorem nearest_correct {ax : Axis K} (hv : ax.Valid) (hne : ax.grid ≠ []) (v : K) :
    ∃ (i : ℕ) (g : K), ax.findNearestIndex v = .ok i ∧ ax.grid[i]? = some g ∧
      ∀ (j : ℕ) (g' : K), ax.grid[j]? = some g' → |v - g| ≤ |v - g'| := by
  rcases (wf_iff _ _).1 hv.wf with h | h
  · have hp := pairwise_of_mono lt_tr (interleave_mono_grid lt_tr h)
    rw [findNearest_eq ax v _ (search_inc hv h v)]
    refine nearest_of_split ax.grid v _ (fun g => decide (g < v)) ?_
      (List.takeWhile_prefix _).length_le hne ?_
    · intro j g hj
      exact takeWhile_split _ (hp.imp (by intro a b hab hb; simp at hb ⊢; linarith)) j g hj
    · intro i j a b hij ha hb
      have hab : a ≤ b := by
        rcases Nat.lt_or_ge i j with hlt | hge
        · exact le_of_lt (pairwise_get hp hlt ha hb)
        · have : i = j := by omega
          subst this
          rw [ha] at hb
          simp at hb
          exact le_of_eq hb
      simp only [decide_eq_true_eq, decide_eq_false_iff_not, not_lt]
      constructor
      · intro hbv
        rw [abs_of_nonneg (by linarith), abs_of_nonneg (by linarith)]
        linarith
      · intro hav
        rw [abs_of_nonpos (by linarith), abs_of_nonpos (by linarith)]
        linarith
  · have hp := pairwise_of_mono gt_tr (interleave_mono_grid gt_tr h)
    rw [findNearest_eq ax v _ (search_dec hv h v hne)]
    refine nearest_of_split ax.grid v _ (fun g => decide (v < g)) ?_
      (List.takeWhile_prefix _).length_le hne ?_
    · intro j g hj
      exact takeWhile_split _ (hp.imp (by intro a b hab hb; simp at hb ⊢; linarith)) j g hj
    · intro i j a b hij ha hb
      have hab : b ≤ a := by
        rcases Nat.lt_or_ge i j with hlt | hge
        · exact le_of_lt (pairwise_get hp hlt ha hb)
        · have : i = j := by omega
          subst this
          rw [ha] at hb
          simp at hb
          exact le_of_eq hb.symm
      simp only [decide_eq_true_eq, decide_eq_false_iff_not, not_lt]
      constructor
      · intro hbv
        rw [abs_of_nonpos (by linarith), abs_of_nonpos (by linarith)]
        linarith
      · intro hav
        rw [abs_of_nonneg (by linarith), abs_of_nonneg (by linarith)]
        linarith

/-! ### Slices -/

theorem interleave_take {r : K → K → Prop} {ns gs : List K} (h : Interleave r ns gs) (t : ℕ) :
    Interleave r (ns.take (t + 1)) (gs.take t) := by
  induction gs generalizing ns t with
  | nil =>
    match ns, h with
    | [_], _ => simp [Interleave]
  | cons g gs ih =>
    match ns, h with
    | a :: b :: ns, h =>
      cases t with
      | zero => simp [Interleave]
      | succ t =>
        have := ih h.2.2 t
        simp only [List.take_succ_cons] at this ⊢
        exact ⟨h.1, h.2.1, this⟩

theorem interleave_drop {r : K → K → Prop} {ns gs : List K} (h : Interleave r ns gs) (s : ℕ)
    (hs : s ≤ gs.length) : Interleave r (ns.drop s) (gs.drop s) := by
  induction s generalizing ns gs with
  | zero => simpa using h
  | succ s ih =>
    cases gs with
    | nil => simp at hs
    | cons g gs =>
      match ns, h with
      | a :: b :: ns, h =>
        simpa using ih h.2.2 (by simpa using hs)

theorem interleave_slice {r : K → K → Prop} {ns gs : List K} (h : Interleave r ns gs) (s t : ℕ)
    (hs : s ≤ t) (ht : t ≤ gs.length) :
    Interleave r ((ns.take (t + 1)).drop s) ((gs.take t).drop s) :=
  interleave_drop (interleave_take h t) s (by simp; omega)

theorem interleave_reverse {r : K → K → Prop} {ns gs : List K} (h : Interleave r ns gs) :
    Interleave (fun a b => r b a) ns.reverse gs.reverse := by
  rw [interleave_iff] at h ⊢
  refine ⟨by simpa using h.1, ?_⟩
  intro i a g b ha hg hb
  obtain ⟨hi, -⟩ := List.getElem?_eq_some_iff.1 hg
  simp at hi
  have h1 := h.1
  rw [List.getElem?_reverse (by omega)] at ha hb
  rw [List.getElem?_reverse hi] at hg
  have h' := h.2 (gs.length - 1 - i) b g a
    (by rw [← hb]; congr 1; omega) hg (by rw [← ha]; congr 1; omega)
  exact ⟨h'.2, h'.1⟩

theorem wf_reverse {ns gs : List K} (h : WellFormedAxis ns gs) :
    WellFormedAxis ns.reverse gs.reverse := by
  rw [wf_iff] at h ⊢
  rcases h with h | h
  · exact Or.inr (interleave_reverse h)
  · exact Or.inl (interleave_reverse h)

theorem evens_append {α : Type} (a b : α) (l : List α) : evens (a :: b :: l) = a :: evens l := rfl

theorem interleave_half_lt {ns gs : List K} (h : Interleave (· < ·) ns gs) :
    Interleave (· < ·) (evens ns)
      (List.zipWith (fun x y => 1 / 2 * (x + y)) (evens gs.dropLast) (evens gs.tail)) := by
  induction hn : gs.length using Nat.strong_induction_on generalizing ns gs with
  | _ n ih =>
    match ns, gs, h with
    | [_], [], _ => trivial
    | a :: b :: ns, [g], h =>
      match ns, h.2.2 with
      | [], _ => trivial
    | a :: b :: ns, g :: g' :: gs, h =>
      match ns, h.2.2 with
      | c :: ns, h2 =>
        have hi := ih gs.length (by simp at hn; omega) h2.2.2 rfl
        have h3 := h.1
        have h4 := h.2.1
        have h5 := h2.1
        have h6 := h2.2.1
        cases gs with
        | nil =>
          match ns, h2.2.2 with
          | [], _ =>
            simp only [evens, List.dropLast, List.tail, List.zipWith, Interleave, and_true]
            constructor <;> linarith
        | cons g2 gs =>
          have e1 : (g :: g' :: g2 :: gs).dropLast = g :: g' :: (g2 :: gs).dropLast := rfl
          have e2 : (g :: g' :: g2 :: gs).tail = g' :: g2 :: gs := rfl
          have e3 : evens (g' :: g2 :: gs) = g' :: evens gs := rfl
          rw [e1, e2, e3]
          rw [evens_append, evens_append, List.zipWith_cons_cons]
          have e4 : evens (c :: ns) = c :: (evens (c :: ns)).tail := by
            cases ns <;> rfl
          rw [e4] at hi ⊢
          exact ⟨by linarith, by linarith, hi⟩

theorem interleave_neg {ns gs : List K} :
    Interleave (· > ·) ns gs ↔ Interleave (· < ·) (ns.map Neg.neg) (gs.map Neg.neg) := by
  induction gs generalizing ns with
  | nil =>
    match ns with
    | [] => simp [Interleave]
    | [_] => simp [Interleave]
    | _ :: _ :: _ => simp [Interleave]
  | cons g gs ih =>
    match ns with
    | [] => simp [Interleave]
    | [_] => simp [Interleave]
    | a :: b :: ns =>
      simp only [Interleave, List.map_cons, neg_lt_neg_iff, gt_iff_lt]
      rw [ih]; rfl

theorem evens_map {α β : Type} (f : α → β) (l : List α) : evens (l.map f) = (evens l).map f := by
  induction hn : l.length using Nat.strong_induction_on generalizing l with
  | _ n ih =>
    match l with
    | [] => rfl
    | [_] => rfl
    | a :: b :: l =>
      simp only [List.map_cons, evens]
      rw [ih l.length (by simp at hn; omega) l rfl]

theorem wf_half {ns gs : List K} (h : WellFormedAxis ns gs) :
    WellFormedAxis (evens ns)
      (List.zipWith (fun x y => 1 / 2 * (x + y)) (evens gs.dropLast) (evens gs.tail)) := by
  rw [wf_iff] at h ⊢
  rcases h with h | h
  · exact Or.inl (interleave_half_lt h)
  · right
    rw [interleave_neg] at h ⊢
    have := interleave_half_lt h
    rw [evens_map] at this
    convert this using 1
    rw [← List.map_dropLast, ← List.map_tail, evens_map, evens_map, List.map_zipWith,
      List.zipWith_map]
    congr 1
    funext a b
    ring

theorem evens_length {α : Type} (l : List α) : (evens l).length = (l.length + 1) / 2 := by
  induction hn : l.length using Nat.strong_induction_on generalizing l with
  | _ n ih =>
    match l with
    | [] => simp at hn; subst hn; rfl
    | [_] => simp at hn; subst hn; rfl
    | a :: b :: l =>
      simp only [evens, List.length_cons] at hn ⊢
      rw [ih l.length (by omega) l rfl]
      omega

theorem isPart_take_drop {α : Type} (l : List α) (s t : ℕ) :
    IsPart l s ((l.take t).drop s) := by
  intro i hi
  simp at hi
  rw [List.getElem?_drop, List.getElem?_take_of_lt (by omega)]

/-- The positions in a slice, and its nodes. -/
theorem slice_all (ax : Axis K) (hlen : ax.gridNode.length = ax.grid.length + 1)
    (start stop : Option ℤ) (hstart : ∀ i, start = some i → 0 ≤ i) (hstop : stop ≠ some 0)
    (hne : sliceFwd ax.grid start stop ≠ []) :
    ∃ s t : ℕ, s < t ∧ t ≤ ax.grid.length ∧
      (∀ {α : Type} (l : List α), l.length = ax.grid.length →
        sliceFwd l start stop = (l.take t).drop s) ∧
      (Slice.forNodes ⟨start, stop, false⟩).apply ax.gridNode
        = (ax.gridNode.take (t + 1)).drop s := by
  -- the positions
  let s := match start with
    | none => 0
    | some i => clampFwd ax.grid.length i
  let t := match stop with
    | none => ax.grid.length
    | some i => clampFwd ax.grid.length i
  have hgrid : sliceFwd ax.grid start stop = (ax.grid.take t).drop s := rfl
  have ht : t ≤ ax.grid.length := by
    show (match stop with
    | none => ax.grid.length
    | some i => clampFwd ax.grid.length i) ≤ _
    cases stop with
    | none => exact le_refl _
    | some i => simp only [clampFwd]; split_ifs <;> omega
  have hst : s < t := by
    by_contra hc
    apply hne
    rw [hgrid]
    apply List.eq_nil_of_length_eq_zero
    simp
    omega
  have hall : ∀ {α : Type} (l : List α), l.length = ax.grid.length →
      sliceFwd l start stop = (l.take t).drop s := by
    intro α l hl
    unfold sliceFwd
    rw [hl]
    rfl
  refine ⟨s, t, hst, ht, hall, ?_⟩
  have hs : (match (Slice.forNodes ⟨start, stop, false⟩).start with
      | none => 0
      | some i => clampFwd ax.gridNode.length i) = s := by
    show _ = (match start with
      | none => 0
      | some i => clampFwd ax.grid.length i)
    cases start with
    | none => rfl
    | some i =>
      have hi := hstart i rfl
      by_cases h0 : i = 0
      · subst h0
        simp [Slice.forNodes, clampFwd]
      · have e : (Slice.forNodes ⟨some i, stop, false⟩).start = some i := by
          unfold Slice.forNodes
          simp only
          split
          · rename_i h; simp at h; exact absurd h h0
          · rfl
        rw [e]
        have hs' : s = clampFwd ax.grid.length i := rfl
        rw [hs'] at hst
        simp only [clampFwd, not_lt.2 hi, if_false] at hst ⊢
        omega
  have ht' : (match (Slice.forNodes ⟨start, stop, false⟩).stop with
      | none => ax.gridNode.length
      | some i => clampFwd ax.gridNode.length i) = t + 1 := by
    show _ = (match stop with
      | none => ax.grid.length
      | some i => clampFwd ax.grid.length i) + 1
    cases stop with
    | none => exact hlen
    | some i =>
      have h0 : i ≠ 0 := fun h => hstop (by rw [h])
      have htv : t = clampFwd ax.grid.length i := rfl
      by_cases hp : 0 < i
      · have e : (Slice.forNodes ⟨start, some i, false⟩).stop = some (i + 1) := by
          simp [Slice.forNodes, hp]
        rw [e]
        simp only [clampFwd, hlen]
        rw [if_neg (by omega), if_neg (by omega)]
        omega
      · have e : (Slice.forNodes ⟨start, some i, false⟩).stop = some i := by
          simp [Slice.forNodes, hp]
        rw [e]
        rw [htv] at hst
        simp only [clampFwd, hlen] at hst ⊢
        rw [if_pos (by omega)] at hst ⊢
        rw [if_pos (by omega)]
        push_cast
        omega
  have hb : (Slice.forNodes ⟨start, stop, false⟩).backward = false := rfl
  unfold Slice.apply
  rw [hb]
  simp only [Bool.false_eq_true, if_false]
  rw [← hs, ← ht']
  rfl

/-- Grid and nodes of a slice. -/
theorem slice_both (ax : Axis K) (hlen : ax.gridNode.length = ax.grid.length + 1)
    (start stop : Option ℤ) (hstart : ∀ i, start = some i → 0 ≤ i) (hstop : stop ≠ some 0)
    (hne : sliceFwd ax.grid start stop ≠ []) :
    ∃ s t : ℕ, s ≤ t ∧ t ≤ ax.grid.length ∧
      sliceFwd ax.grid start stop = (ax.grid.take t).drop s ∧
      (Slice.forNodes ⟨start, stop, false⟩).apply ax.gridNode
        = (ax.gridNode.take (t + 1)).drop s := by
  obtain ⟨s, t, h1, h2, h3, h4⟩ := slice_all ax hlen start stop hstart hstop hne
  exact ⟨s, t, h1.le, h2, h3 _ rfl, h4⟩

theorem extentToSlice_ok (ax : Axis K) (a b : Option K)
    (hin : (min ax.extent.1 ax.extent.2 ≤ a.getD ax.extent.1 ∧
        a.getD ax.extent.1 ≤ max ax.extent.1 ax.extent.2) ∨
      (min ax.extent.1 ax.extent.2 ≤ b.getD ax.extent.2 ∧
        b.getD ax.extent.2 ≤ max ax.extent.1 ax.extent.2))
    (s t : ℕ) (hs : ax.search (a.getD ax.extent.1) = .ok s)
    (ht : ax.search (b.getD ax.extent.2) = .ok t)
    (hd : (decide (b.getD ax.extent.2 < a.getD ax.extent.1) != ax.isReversed) = false) :
    ax.extentToSlice a b = .ok ⟨some (s : ℤ), some (t : ℤ), false⟩ := by
  have hi : (ax.insideDomain (a.getD ax.extent.1) || ax.insideDomain (b.getD ax.extent.2)) = true := by
    rw [Bool.or_eq_true]
    unfold Axis.insideDomain
    simpa only [decide_eq_true_eq] using hin
  unfold Axis.extentToSlice
  simp only [hi, hs, ht, hd]
  rfl

theorem range_of_slice (spl : Splines K) (ax : Axis K) (hv : ax.Valid) (a b : Option K)
    (p q : K → Bool) (f : K → Prop) [DecidablePred f]
    (hs : ax.extentToSlice a b = .ok ⟨some ((ax.grid.takeWhile p).length : ℤ),
      some ((ax.grid.takeWhile q).length : ℤ), false⟩)
    (hp : ax.grid.Pairwise fun a b => p b = true → p a = true)
    (hq : ax.grid.Pairwise fun a b => q b = true → q a = true)
    (hf : ∀ x, (!p x && q x) = decide (f x)) :
    (∃ s, ax.extentToSlice a b = .ok s ∧ s.apply ax.grid = ax.grid.filter fun x => decide (f x)) ∧
    ((∃ x ∈ ax.grid, f x) →
      ∃ ax', ax.getRange spl a b = .ok ax' ∧
        ax'.grid = (ax.grid.filter fun x => decide (f x)) ∧
        (∃ k, IsPart ax.grid k ax'.grid ∧ IsPart ax.gridNode k ax'.gridNode) ∧
        ValidAxis ax'.gridNode ax'.grid ax'.extent) := by
  have hpl : (ax.grid.takeWhile p).length ≤ ax.grid.length := (List.takeWhile_prefix _).length_le
  have hql : (ax.grid.takeWhile q).length ≤ ax.grid.length := (List.takeWhile_prefix _).length_le
  have hfil : sliceFwd ax.grid (some ((ax.grid.takeWhile p).length : ℤ))
      (some ((ax.grid.takeWhile q).length : ℤ)) = ax.grid.filter fun x => decide (f x) := by
    have h := take_drop_filter p q hp hq
    simp only [hf] at h
    rw [← h]
    unfold sliceFwd
    simp only [clampFwd]
    rw [if_neg (by omega), if_neg (by omega), Int.toNat_natCast, Int.toNat_natCast,
      min_eq_left hpl, min_eq_left hql]
  refine ⟨⟨_, hs, hfil⟩, ?_⟩
  rintro ⟨x, hx, hfx⟩
  have hne : sliceFwd ax.grid (some ((ax.grid.takeWhile p).length : ℤ))
      (some ((ax.grid.takeWhile q).length : ℤ)) ≠ [] := by
    rw [hfil]
    intro h
    have : x ∈ ax.grid.filter fun x => decide (f x) := by simp [hx, hfx]
    rw [h] at this
    simp at this
  have hst0 : (some ((ax.grid.takeWhile q).length : ℤ)) ≠ some 0 := by
    intro h
    simp only [Option.some.injEq, Nat.cast_eq_zero] at h
    apply hne
    unfold sliceFwd
    simp [h, clampFwd]
  obtain ⟨s, t, hst, ht, hgrid, hnodes⟩ := slice_both ax hv.wf.1 _ _
    (by intro i hi; simp at hi; omega) hst0 hne
  have hwf : WellFormedAxis ((ax.gridNode.take (t + 1)).drop s) ((ax.grid.take t).drop s) := by
    have := hv.wf
    rw [wf_iff] at this ⊢
    exact this.imp (fun h => interleave_slice h s t hst ht) (fun h => interleave_slice h s t hst ht)
  obtain ⟨e, h1, h2, h3⟩ := mkAxis_wf spl ax.name ax.unit hwf
  refine ⟨⟨ax.name, ax.unit, (ax.gridNode.take (t + 1)).drop s, (ax.grid.take t).drop s, e⟩, ?_, ?_,
    ⟨s, ?_, ?_⟩, ⟨hwf, h2, h3⟩⟩
  · unfold Axis.getRange
    rw [hs]
    simp only [bind, Except.bind]
    unfold Axis.getSlice
    rw [hnodes]
    have hap : Slice.apply ⟨some ((ax.grid.takeWhile p).length : ℤ),
      some ((ax.grid.takeWhile q).length : ℤ), false⟩ ax.grid
        = sliceFwd ax.grid (some ((ax.grid.takeWhile p).length : ℤ))
          (some ((ax.grid.takeWhile q).length : ℤ)) := rfl
    rw [hap, hgrid]
    exact h1
  · rw [← hfil, hgrid]
  · exact isPart_take_drop _ _ _
  · exact isPart_take_drop _ _ _

end Postpic.Axes
