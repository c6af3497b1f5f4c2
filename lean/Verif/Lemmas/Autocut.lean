import Mathlib.Tactic.Linarith
import Mathlib.Tactic.FieldSimp
import Mathlib.Tactic.Ring
import Mathlib.Algebra.Order.Field.Basic
import Verif.Lemmas.FieldIndex
import Verif.Lemmas.FieldReduce
import Verif.Spec.Autocut

/-!
# Lemmas about cutting out the main feature
-/

set_option autoImplicit false
set_option linter.unusedSectionVars false

namespace Postpic.Fields

open Postpic Postpic.Axes Postpic.Spec

section
variable {K : Type} [_root_.Field K] [LinearOrder K] [IsStrictOrderedRing K]

theorem head_least {l : List ℕ} (hl : l.Pairwise (· < ·)) {a : ℕ} (ha : l.head? = some a) :
    ∀ k ∈ l, a ≤ k := by
  cases l with
  | nil => cases ha
  | cons b l =>
    cases ha
    intro k hk
    rcases List.mem_cons.1 hk with rfl | hk
    · exact le_refl _
    · exact ((List.pairwise_cons.1 hl).1 k hk).le

theorem last_greatest {l : List ℕ} (hl : l.Pairwise (· < ·)) {a : ℕ} (ha : l.getLast? = some a) :
    ∀ k ∈ l, k ≤ a := by
  have hr : l.reverse.Pairwise (fun x y => y < x) := List.pairwise_reverse.2 hl
  intro k hk
  rw [← List.head?_reverse] at ha
  have hk : k ∈ l.reverse := List.mem_reverse.2 hk
  cases h : l.reverse with
  | nil => rw [h] at ha; cases ha
  | cons b t =>
    rw [h] at ha hr hk
    cases ha
    rcases List.mem_cons.1 hk with rfl | hk
    · exact le_refl _
    · exact ((List.pairwise_cons.1 hr).1 k hk).le

/-- The outermost positions above a fraction of the maximum. -/
theorem maxFrac_spec {l : List K} {m fr : K} (hm : l.max? = some m) (h : m * fr < m) :
    ∃ a b, maxFracBounds l fr = .ok (a, b) ∧ a < b ∧ b ≤ l.length ∧
      (∀ j < l.length, m * fr < l.getD j 0 → a ≤ j ∧ j < b) ∧ m * fr < l.getD a 0 ∧
      m * fr < l.getD (b - 1) 0 := by
  have hmem : m ∈ l := List.max?_mem hm
  obtain ⟨k, hk, rfl⟩ := List.mem_iff_getElem.1 hmem
  set c := l[k] * fr with hc
  set i := (List.range l.length).filter fun k => decide (c < l.getD k 0) with hi
  have hki : k ∈ i := by
    rw [hi, List.mem_filter]
    refine ⟨List.mem_range.2 hk, ?_⟩
    rw [List.getD_eq_getElem _ _ hk]
    exact decide_eq_true h
  have hp : i.Pairwise (· < ·) := List.Pairwise.filter _ List.pairwise_lt_range
  have hne : i ≠ [] := List.ne_nil_of_mem hki
  obtain ⟨a, ha⟩ : ∃ a, i.head? = some a := by
    rw [← Option.isSome_iff_exists, List.isSome_head?]
    exact hne
  obtain ⟨b, hb⟩ : ∃ b, i.getLast? = some b := ⟨_, List.getLast?_eq_some_getLast hne⟩
  have hai : a ∈ i := List.mem_of_mem_head? ha
  have hbi : b ∈ i := List.mem_of_getLast? hb
  have hab := head_least hp ha b hbi
  have h1 := hai
  have h2 := hbi
  rw [hi, List.mem_filter, List.mem_range, decide_eq_true_eq] at h1 h2
  refine ⟨a, b + 1, ?_, by omega, by omega, ?_, h1.2, by simpa using h2.2⟩
  · unfold maxFracBounds
    rw [hm]
    show (match i.head?, i.getLast? with
      | some a, some b => .ok (a, b + 1)
      | _, _ => .error .indexError : Res (ℕ × ℕ)) = _
    rw [ha, hb]
  · intro j hj hjc
    have hji : j ∈ i := by
      rw [hi, List.mem_filter, List.mem_range, decide_eq_true_eq]
      exact ⟨hj, hjc⟩
    have := head_least hp ha j hji
    have := last_greatest hp hb j hji
    omega

theorem cutRange_spec {l : List K} {m p q : K} (hm : l.max? = some m) (hpos : 0 < m) (hpq : p ≤ q)
    (hq : q < 1) :
    ∃ (b c x : ℕ), cutRange l (p, q) = .ok (((b - x : ℕ) : ℤ), ((c + x : ℕ) : ℤ),
        1 - ((c - b : ℕ) : K) / ((c - b + 2 * x : ℕ) : K)) ∧
      x ≤ b ∧ b < c ∧ c + x ≤ l.length ∧
      (∀ j < l.length, m * q < l.getD j 0 → b ≤ j ∧ j < c) ∧ m * q < l.getD b 0 ∧
      m * q < l.getD (c - 1) 0 := by
  have h1 : m * p ≤ m * q := mul_le_mul_of_nonneg_left hpq hpos.le
  have h2 : m * q < m := by nlinarith
  obtain ⟨a, d, ha, had, hd, hin, -, -⟩ := maxFrac_spec hm (lt_of_le_of_lt h1 h2)
  obtain ⟨b, c, hb, hbc, hc, hin', hb1, hc1⟩ := maxFrac_spec hm h2
  have hb2 := hin b (by omega) (lt_of_le_of_lt h1 hb1)
  have hc2 := hin (c - 1) (by omega) (lt_of_le_of_lt h1 hc1)
  refine ⟨b, c, min (min (max (d - c) (b - a)) (l.length - c)) b, ?_, by omega, hbc, by omega, hin',
    hb1, hc1⟩
  unfold cutRange
  simp only [ha, hb, bind, Except.bind]
  rw [if_neg (by push Not; omega)]
  have ex : min (min (max ((d : ℤ) - c) (b - a)) ((l.length : ℤ) - c)) b =
      ((min (min (max (d - c) (b - a)) (l.length - c)) b : ℕ) : ℤ) := by omega
  simp only [ex]
  generalize hx : min (min (max (d - c) (b - a)) (l.length - c)) b = x
  have hxb : x ≤ b := by omega
  have e1 : (b : ℤ) - (x : ℤ) = ((b - x : ℕ) : ℤ) := by omega
  have e2 : (c : ℤ) + (x : ℤ) = ((c + x : ℕ) : ℤ) := by omega
  have e3 : (c : ℤ) - (b : ℤ) = ((c - b : ℕ) : ℤ) := by omega
  have e4 : ((c + x : ℕ) : ℤ) - ((b - x : ℕ) : ℤ) = ((c - b + 2 * x : ℕ) : ℤ) := by omega
  simp only [e1, e2, e3, e4, Int.cast_natCast]
  rfl

end

section
variable {K V : Type} [_root_.Field K] [LinearOrder K] [IsStrictOrderedRing K]

theorem range_drop_eq {n m k : ℕ} (hk : 0 < k) (h : List.range k = (List.range n).drop m) :
    m = 0 ∧ n = k := by
  have h0 := congrArg (fun l => l[0]?) h
  simp only [List.getElem?_range hk, List.getElem?_drop, Nat.add_zero] at h0
  have hl := congrArg List.length h
  simp only [List.length_range, List.length_drop] at hl
  have : m < n := by omega
  rw [List.getElem?_range this] at h0
  simp at h0
  omega

/-- `squeeze()` removes the dimensions of length one. -/
theorem squeeze_sound (spl : Splines K) {f : Field K V} (hf : f.Sound) (h3 : f.shape.length ≤ 3) :
    ∃ r, f.squeeze spl = .ok r ∧ r.Sound ∧ r.name = f.name ∧ r.unit = f.unit ∧
      r.shape = f.shape.filter (fun n => decide (n ≠ 1)) ∧
      r.axes.map (fun ax => (ax.name, ax.unit, ax.grid, ax.gridNode)) =
        (f.axes.filter (fun ax => decide (ax.len ≠ 1))).map
          (fun ax => (ax.name, ax.unit, ax.grid, ax.gridNode)) ∧
      (∀ idx, InBounds r.shape idx → r.matrix.at' idx = f.matrix.at' (unsqueeze f.shape idx)) := by
  have hl := ok_axes_length hf.ok
  have hpos : ∀ ax ∈ f.axes, 0 < ax.len := by
    intro ax hax
    rcases Nat.eq_zero_or_pos ax.len with h0 | h0
    · exact absurd (by rw [← hf.ok.lengths, ← h0]; exact List.mem_map_of_mem hax) hf.nonempty
    · exact h0
  obtain ⟨r, sels, h1, h2, h4, h5, h6, h7, h8, h9, h10, h11, h12⟩ := getitem_sound spl hf
    (f.axes.map fun (ax : Axis K) => if ax.len = 1 then (Key.int 0 : Key K) else .slice ⟨none, none, false⟩)
    (by rw [List.length_map, hl]) h3 (by
      intro d ax k hax hk
      rw [List.getElem?_map, hax] at hk
      have hp := hpos ax (List.mem_of_getElem? hax)
      simp only [Option.map_some, Option.some.injEq] at hk
      subst hk
      split_ifs with h
      · refine ⟨by omega, by omega⟩
      · refine ⟨rfl, by simp, by simp, ?_⟩
        simp [sliceFwd]
        omega)
  have hsel : ∀ (d : ℕ) (ax : Axis K) (s : Sel), f.axes[d]? = some ax → sels[d]? = some s →
      s = if ax.len = 1 then .one 0 else .part 0 ax.len := by
    intro d ax s hax hs
    have := h5 d ax _ s hax (by rw [List.getElem?_map, hax]; rfl) hs
    have hp := hpos ax (List.mem_of_getElem? hax)
    by_cases h : ax.len = 1
    · simp only [if_pos h] at this ⊢
      cases s with
      | one k =>
        have : (k : ℤ) = if (0 : ℤ) ≤ 0 then 0 else 0 + ax.len := this
        simp at this
        rw [this]
      | part a b => exact this.elim
    · simp only [if_neg h] at this ⊢
      cases s with
      | one k => exact this.elim
      | part a b =>
        have : sliceFwd (List.range ax.len) none none = (List.range b).drop a := this
        have e : sliceFwd (List.range ax.len) none none = List.range ax.len := by
          simp [sliceFwd]
        rw [e] at this
        obtain ⟨rfl, rfl⟩ := range_drop_eq hp this
        rfl
  have hsels : sels = f.axes.map fun ax => if ax.len = 1 then Sel.one 0 else .part 0 ax.len := by
    apply List.ext_getElem?
    intro d
    rw [List.getElem?_map]
    by_cases hd : d < f.axes.length
    · have e1 : f.axes[d]? = some f.axes[d] := List.getElem?_eq_getElem hd
      have e2 : sels[d]? = some (sels[d]'(by omega)) := List.getElem?_eq_getElem _
      rw [e1, e2, Option.map_some, hsel d _ _ e1 e2]
    · rw [List.getElem?_eq_none (by omega), List.getElem?_eq_none (by omega)]
      rfl
  have hshape : f.shape = f.axes.map Axis.len := hf.ok.lengths.symm
  have hs1 : selShape sels = f.shape.filter (fun n => decide (n ≠ 1)) := by
    rw [hsels, hshape]
    generalize f.axes = axs
    induction axs with
    | nil => rfl
    | cons ax axs ih =>
      simp only [List.map_cons]
      by_cases h : ax.len = 1
      · rw [if_pos h, selShape, ih, List.filter_cons_of_neg (by simp [h])]
      · rw [if_neg h, selShape, ih, List.filter_cons_of_pos (by simp [h])]
        rfl
  have hidx : ∀ idx, selIdx sels idx = unsqueeze f.shape idx := by
    rw [hsels, hshape]
    generalize f.axes = axs
    induction axs with
    | nil => intro idx; rfl
    | cons ax axs ih =>
      intro idx
      simp only [List.map_cons]
      by_cases h : ax.len = 1
      · rw [if_pos h, selIdx, ih, unsqueeze, if_pos h]
      · rw [if_neg h, unsqueeze, if_neg h]
        cases idx with
        | nil =>
          rw [selIdx, ih]
          rfl
        | cons i idx =>
          rw [selIdx, ih]
          simp
  refine ⟨r, ?_, h2, h6, h7, h8.trans hs1, ?_, ?_⟩
  · unfold Field.squeeze
    simp only [h1, bind, Except.bind]
    rw [if_neg]
    · rfl
    · rw [h2.ok.lengths]
      simp
  · rw [hsels] at h9
    revert h9
    generalize r.axes = raxs
    have hp : ∀ ax ∈ f.axes, ax.gridNode.length = ax.len + 1 := fun ax h => (hf.valid ax h).wf.1
    revert hp
    generalize f.axes = axs
    intro hp h9
    induction axs generalizing raxs with
    | nil =>
      simp only [List.map_nil, unflagged] at h9
      cases h9
      rfl
    | cons ax axs ih =>
      have hp' : ∀ ax ∈ axs, ax.gridNode.length = ax.len + 1 := fun ax h => hp ax (by simp [h])
      simp only [List.map_cons, List.zip_cons_cons] at h9
      by_cases h : ax.len = 1
      · rw [if_pos h] at h9
        simp only [Sel.isOne, unflagged] at h9
        rw [List.filter_cons_of_neg (by simp [h])]
        exact ih raxs hp' h9
      · rw [if_neg h] at h9
        simp only [Sel.isOne, unflagged] at h9
        cases h9 with
        | cons ha ht =>
          rw [List.filter_cons_of_pos (by simp [h]), List.map_cons, List.map_cons, ih _ hp' ht]
          congr 1
          obtain ⟨a1, a2, a3, a4, a5, a6, a7⟩ := ha
          simp only [List.drop_zero] at a5 a6
          have e1 : ax.grid.take ax.len = ax.grid := List.take_of_length_le (le_refl _)
          rw [e1] at a5
          have e2 : ax.gridNode.take (ax.len + 1) = ax.gridNode :=
            List.take_of_length_le (hp ax (by simp)).le
          rw [e2] at a6
          rw [a1, a2, a5, a6]
  · intro idx hi
    rw [h12 idx hi, hidx]

end

section
variable {K V : Type} [_root_.Field K] [LinearOrder K] [IsStrictOrderedRing K]

/-- The field of absolute values. -/
def absField (absV : V → K) (s : Field K V) : Field K K :=
  ⟨s.name, s.unit, ⟨s.shape, fun idx => absV (s.matrix.at' idx)⟩, s.axes, s.ats, s.tao⟩

theorem absField_sound (absV : V → K) {s : Field K V} (hs : s.Sound) : (absField absV s).Sound :=
  ⟨hs.ok, hs.valid, hs.nonempty⟩

theorem project_spec (spl : Splines K) (absV : V → K) {s : Field K V} (hs : s.Sound)
    (hn : s.shape.length ≤ 2) (d : ℕ) (hd : d < s.shape.length) :
    ∃ p, projectAxes spl s.shape.length d (absField absV s) = .ok p ∧
      p.shape = [s.shape.getD d 0] ∧
      ∀ j, p.matrix.at' [j] = projection absV s.matrix d j := by
  have ha := absField_sound absV hs
  match hsh : s.shape, hn, hd with
  | [m], _, hd =>
    have hd : d = 0 := by simpa using hd
    subst hd
    refine ⟨absField absV s, rfl, hsh, ?_⟩
    intro j
    have hsm : s.matrix.shape = [m] := hsh
    unfold projection
    rw [hsm]
    rfl
  | [m, k], _, hd =>
    have hsm : s.matrix.shape = [m, k] := hsh
    have hal : (absField absV s).shape = [m, k] := hsh
    have hd : d = 0 ∨ d = 1 := by simp at hd; omega
    rcases hd with rfl | rfl
    · have hr := reduce_sound spl meanList ha (l := [1]) (p := [1]) (by
        rw [hal]
        exact List.Forall₂.cons rfl List.Forall₂.nil) (by simp) (Or.inr (by simp)) (by
        rw [hal]
        simp [flags, unflagged, List.range_succ])
      obtain ⟨p, hp, hpm⟩ : ∃ p, (absField absV s).reduce spl meanList (some [1]) false = .ok p ∧
          p.matrix = (absField absV s).matrix.reduce meanList (flags [m, k].length [1]) :=
        ⟨_, hr, by rw [hal]⟩
      refine ⟨p, ?_, ?_, ?_⟩
      · unfold projectAxes
        simp only [List.range_succ, List.range_zero, List.nil_append, List.cons_append,
          List.length_cons, List.length_nil, List.foldlM_cons, List.foldlM_nil]
        rw [if_neg (by simp)]
        simp only [bind, Except.bind]
        rw [if_pos (by simp)]
        rw [show ((1 : ℕ) : ℤ) = 1 from rfl, hp]
        rfl
      · unfold Field.shape
        rw [hpm]
        show keep _ (absField absV s).shape = _
        rw [hal]
        rfl
      · intro j
        rw [hpm]
        unfold projection
        rw [hsm]
        show meanList ((fibre (absField absV s).shape _ [j]).map _) = _
        rw [hal]
        have e : fibre [m, k] (flags [m, k].length [1]) [j] = (List.range k).map fun i => [j, i] := by
          simp [flags, fibre, List.range_succ, List.map_flatMap, List.flatMap_def]
          induction List.range k with
          | nil => rfl
          | cons x l ih => simp [ih]
        rw [e, List.map_map]
        simp only [meanList, List.length_map, List.length_range]
        rfl
    · have hr := reduce_sound spl meanList ha (l := [0]) (p := [0]) (by
        rw [hal]
        exact List.Forall₂.cons rfl List.Forall₂.nil) (by simp) (Or.inr (by simp)) (by
        rw [hal]
        simp [flags, unflagged, List.range_succ])
      obtain ⟨p, hp, hpm⟩ : ∃ p, (absField absV s).reduce spl meanList (some [0]) false = .ok p ∧
          p.matrix = (absField absV s).matrix.reduce meanList (flags [m, k].length [0]) :=
        ⟨_, hr, by rw [hal]⟩
      refine ⟨p, ?_, ?_, ?_⟩
      · unfold projectAxes
        simp only [List.range_succ, List.range_zero, List.nil_append, List.cons_append,
          List.length_cons, List.length_nil, List.foldlM_cons, List.foldlM_nil]
        rw [if_pos (by simp)]
        rw [show ((0 : ℕ) : ℤ) = 0 from rfl, hp]
        simp only [bind, Except.bind]
        rw [if_neg (by simp)]
        rfl
      · unfold Field.shape
        rw [hpm]
        show keep _ (absField absV s).shape = _
        rw [hal]
        rfl
      · intro j
        rw [hpm]
        unfold projection
        rw [hsm]
        show meanList ((fibre (absField absV s).shape _ [j]).map _) = _
        rw [hal]
        have e : fibre [m, k] (flags [m, k].length [0]) [j] = (List.range m).map fun i => [i, j] := by
          simp [flags, fibre, List.range_succ, List.flatMap_def]
          induction List.range m with
          | nil => rfl
          | cons x l ih => simp [ih]
        rw [e, List.map_map]
        simp only [meanList, List.length_map, List.length_range]
        rfl

/-- The projections of a field with a sample that is not zero have a positive maximum. -/
theorem projection_pos (absV : V → K) (h0 : ∀ v, 0 ≤ absV v) {s : Field K V} (hs : s.Sound)
    (hn : s.shape.length ≤ 2) {idx : List ℕ} (hi : InBounds s.shape idx)
    (hv : 0 < absV (s.matrix.at' idx)) (d : ℕ) (hd : d < s.shape.length) :
    ∃ j < s.shape.getD d 0, 0 < projection absV s.matrix d j := by
  have sumpos : ∀ (n i : ℕ) (g : ℕ → K), (∀ k, 0 ≤ g k) → i < n → 0 < g i →
      0 < ((List.range n).map g).sum / (n : K) := by
    intro n i g hg hin hgi
    apply div_pos
    · have h1 : ∀ x ∈ (List.range n).map g, 0 ≤ x := by
        intro x hx
        obtain ⟨k, _, rfl⟩ := List.mem_map.1 hx
        exact hg k
      have := List.single_le_sum h1 (g i) (List.mem_map.2 ⟨i, List.mem_range.2 hin, rfl⟩)
      exact lt_of_lt_of_le hgi this
    · exact_mod_cast (by omega : 0 < n)
  obtain ⟨hl, hb⟩ := hi
  match hsh : s.shape, hn, hd with
  | [m], _, hd =>
    have hd : d = 0 := by simpa using hd
    subst hd
    have hsm : s.matrix.shape = [m] := hsh
    rw [hsh] at hl hb
    match idx, hl with
    | [i], _ =>
      refine ⟨i, hb 0 i m rfl rfl, ?_⟩
      unfold projection
      rw [hsm]
      exact hv
  | [m, k], _, hd =>
    have hsm : s.matrix.shape = [m, k] := hsh
    rw [hsh] at hl hb
    match idx, hl with
    | [i, j], _ =>
      have hd : d = 0 ∨ d = 1 := by simp at hd; omega
      unfold projection
      rw [hsm]
      rcases hd with rfl | rfl
      · exact ⟨i, hb 0 i m rfl rfl, sumpos k j (fun x => absV (s.matrix.at' [i, x]))
          (fun _ => h0 _) (hb 1 j k rfl rfl) hv⟩
      · exact ⟨j, hb 1 j k rfl rfl, sumpos m i (fun x => absV (s.matrix.at' [x, j]))
          (fun _ => h0 _) (hb 0 i m rfl rfl) hv⟩

theorem max_of_range (g : ℕ → K) (n : ℕ) (hn : 0 < n) :
    ∃ m i, ((List.range n).map g).max? = some m ∧ i < n ∧ m = g i ∧ ∀ j < n, g j ≤ m := by
  have hne : (List.range n).map g ≠ [] := by
    simp
    omega
  obtain ⟨m, hm⟩ : ∃ m, ((List.range n).map g).max? = some m := by
    cases h : (List.range n).map g with
    | nil => exact absurd h hne
    | cons a l => exact ⟨_, List.max?_cons' ⟩
  have h1 := List.max?_mem hm
  obtain ⟨i, hi, rfl⟩ := List.mem_map.1 h1
  refine ⟨g i, i, hm, List.mem_range.1 hi, rfl, ?_⟩
  intro j hj
  exact (List.max?_eq_some_iff.1 hm).2 _ (List.mem_map.2 ⟨j, List.mem_range.2 hj, rfl⟩)

end

/-! ### Slices and windows -/

section

theorem foldl_set_get {α : Type} (g : ℕ → α) (L : List ℕ) (l : List α) (i : ℕ) :
    (L.foldl (fun l d => l.set d (g d)) l)[i]? = if i ∈ L ∧ i < l.length then some (g i) else l[i]? := by
  induction L generalizing l with
  | nil => simp
  | cons d L ih =>
    rw [List.foldl_cons, ih, List.length_set]
    by_cases h1 : i ∈ L ∧ i < l.length
    · rw [if_pos h1, if_pos ⟨List.mem_cons_of_mem _ h1.1, h1.2⟩]
    · rw [if_neg h1, List.getElem?_set]
      by_cases hd : d = i
      · subst hd
        by_cases hl : d < l.length
        · simp [hl]
        · simp only [hl, and_false, if_false, if_true]
          rw [List.getElem?_eq_none (by omega)]
      · rw [if_neg hd, if_neg]
        rintro ⟨h2, h3⟩
        rcases List.mem_cons.1 h2 with h | h
        · exact hd h.symm
        · exact h1 ⟨h, h3⟩

theorem range_drop_drop {e f m n : ℕ} (hef : e < f) (h : (List.range f).drop e = (List.range n).drop m) :
    m = e ∧ n = f := by
  have h0 := congrArg (fun l => l[0]?) h
  simp only [List.getElem?_drop, Nat.add_zero, List.getElem?_range hef] at h0
  have hl := congrArg List.length h
  simp only [List.length_range, List.length_drop] at hl
  have : m < n := by omega
  rw [List.getElem?_range this] at h0
  simp at h0
  omega

theorem sliceFwd_range {len e f : ℕ} (hef : e < f) (hf : f ≤ len) :
    sliceFwd (List.range len) (some (e : ℤ)) (some (f : ℤ)) = (List.range f).drop e := by
  unfold sliceFwd clampFwd
  simp only [List.length_range]
  rw [if_neg (by omega), if_neg (by omega), List.take_range]
  congr 2
  · omega
  · congr 1
    omega

theorem bshapeRev_ones : ∀ (s w : List ℕ), List.Forall₂ (fun a b => b = 1 ∨ b = a) s w →
    bshapeRev s w = some s := by
  intro s w h
  induction h with
  | nil => rfl
  | @cons a b l1 l2 hab _ ih =>
    unfold bshapeRev
    rw [ih]
    rcases hab with hb | hb
    · subst hb
      by_cases h1 : a = 1
      · simp [h1]
      · simp [h1]
    · subst hb
      simp

theorem bshape_ones {s w : List ℕ} (h : List.Forall₂ (fun a b => b = 1 ∨ b = a) s w) :
    bshape s w = some s := by
  unfold bshape
  rw [bshapeRev_ones _ _ (List.forall₂_reverse_iff.2 h)]
  simp

theorem bindex_self {s idx : List ℕ} (h : InBounds s idx) : bindex s idx = idx := by
  unfold bindex
  rw [h.1, Nat.sub_self, List.drop_zero]
  apply List.ext_getElem?
  intro d
  by_cases hd : d < s.length
  · have hd' : d < idx.length := by rw [h.1]; exact hd
    have e1 : s[d]? = some s[d] := List.getElem?_eq_getElem hd
    have e2 : idx[d]? = some idx[d] := List.getElem?_eq_getElem hd'
    rw [List.getElem?_zipWith, e1, e2]
    have := h.2 d _ _ e2 e1
    show some (if s[d] = 1 then 0 else idx[d]) = some idx[d]
    split_ifs with h1
    · congr 1
      omega
    · rfl
  · have hl := h.1
    rw [List.getElem?_eq_none (by simp; omega), List.getElem?_eq_none (by omega)]

variable {K V : Type} [_root_.Field K] [LinearOrder K] [MulAction K V]

theorem scale_along {a : Arr V} {d : ℕ} {w : List K} (hd : a.shape[d]? = some w.length) :
    ∃ r, scaleBy a (alongAxis a.shape.length d w) = .ok r ∧ r.shape = a.shape ∧
      ∀ idx, InBounds a.shape idx → r.at' idx = w.getD (idx.getD d 0) 0 • a.at' idx := by
  have hlt : d < a.shape.length := (List.getElem?_eq_some_iff.1 hd).1
  have hfa : List.Forall₂ (fun a b => b = 1 ∨ b = a) a.shape
      (alongAxis a.shape.length d w : Arr K).shape := by
    rw [List.forall₂_iff_get]
    refine ⟨by simp [alongAxis], ?_⟩
    intro i h1 h2
    simp only [alongAxis, List.get_eq_getElem, List.getElem_set]
    by_cases hi : d = i
    · subst hi
      right
      rw [if_pos rfl]
      exact (Option.some.inj ((List.getElem?_eq_getElem h1).symm.trans hd)).symm
    · left
      rw [if_neg hi]
      simp
  unfold scaleBy
  rw [bshape_ones hfa]
  refine ⟨_, rfl, rfl, ?_⟩
  intro idx hi
  show (alongAxis a.shape.length d w : Arr K).at' (bindex _ idx) • a.at' (bindex a.shape idx) = _
  rw [bindex_self hi]
  congr 1
  show w.getD ((bindex ((List.replicate a.shape.length 1).set d w.length) idx).getD d 0) 0 = _
  congr 1
  have hid : d < idx.length := by rw [hi.1]; exact hlt
  have e2 : idx[d]? = some idx[d] := List.getElem?_eq_getElem hid
  have hlt2 := hi.2 d _ _ e2 hd
  unfold bindex
  rw [List.length_set, List.length_replicate, hi.1, Nat.sub_self, List.drop_zero]
  rw [List.getD_eq_getElem?_getD, List.getD_eq_getElem?_getD, List.getElem?_zipWith,
    List.getElem?_set_self (by simpa using hlt), e2]
  simp only [Option.getD_some]
  split_ifs with h1
  · omega
  · rfl

theorem scale_all {C : List (ℕ × Slice × List K)} {a : Arr V} {n : ℕ} (hn : a.shape.length = n)
    (hC : ∀ c ∈ C, a.shape[c.1]? = some c.2.2.length) :
    ∃ r, C.foldlM (fun (m : Arr V) c => scaleBy m (alongAxis n c.1 c.2.2)) a = .ok r ∧
      r.shape = a.shape ∧ ∀ idx, InBounds a.shape idx →
        r.at' idx = (C.map fun c => c.2.2.getD (idx.getD c.1 0) 0).prod • a.at' idx := by
  induction C generalizing a with
  | nil => exact ⟨a, rfl, rfl, by simp⟩
  | cons c C ih =>
    obtain ⟨r1, h1, h2, h3⟩ := scale_along (hC c (by simp))
    obtain ⟨r2, g1, g2, g3⟩ := ih (a := r1) (by rw [h2]; exact hn) (by
      intro c' hc'
      rw [h2]
      exact hC c' (by simp [hc']))
    refine ⟨r2, ?_, g2.trans h2, ?_⟩
    · rw [List.foldlM_cons, ← hn, h1]
      rw [hn]
      exact g1
    · intro idx hi
      rw [g3 idx (by rw [h2]; exact hi), h3 idx hi, smul_smul, List.map_cons, List.prod_cons, mul_comm]

end

end Postpic.Fields
