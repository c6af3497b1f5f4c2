import Mathlib.Algebra.BigOperators.Group.Finset.Basic
import Mathlib.Algebra.BigOperators.Ring.Finset
import Mathlib.Algebra.Module.BigOperators
import Verif.Spec.FieldReduce
import Verif.Lemmas.FieldMoves
import Verif.Lemmas.FieldNodes

/-!
# Lemmas about reductions and integrals
-/

set_option autoImplicit false
set_option linter.unusedSectionVars false

namespace Postpic.Fields

open Postpic Postpic.Axes Postpic.Spec

/-! ### Flags -/

theorem keep_eq {α : Type} (sel : List Bool) (l : List α) : keep sel l = unflagged sel l := by
  induction sel generalizing l with
  | nil => simp [keep, unflagged]
  | cons s sel ih =>
    cases l with
    | nil => cases s <;> simp [keep, unflagged]
    | cons a l => cases s <;> simp [keep, unflagged, ih]

theorem unflagged_none {α : Type} (n : ℕ) (l : List α) (h : l.length = n) :
    unflagged (flags n []) l = l := by
  subst h
  unfold flags
  induction l with
  | nil => rfl
  | cons a l ih =>
    rw [List.length_cons, List.range_succ_eq_map]
    simp only [List.map_cons, List.map_map, unflagged]
    simp at ih ⊢
    exact ih

theorem unflagged_insert {α : Type} {sel : List Bool} {l : List α} {a : ℕ} (ha : a < l.length)
    (hs : a ≤ sel.length) : unflagged (sel.insertIdx a true) l = unflagged sel (l.eraseIdx a) := by
  induction a generalizing sel l with
  | zero =>
    cases l with
    | nil => simp at ha
    | cons x l => simp [unflagged]
  | succ a ih =>
    cases l with
    | nil => simp at ha
    | cons x l =>
      cases sel with
      | nil => simp at hs
      | cons s sel =>
        simp only [List.insertIdx_succ_cons, List.eraseIdx_cons_succ, unflagged]
        rw [ih (by simpa using ha) (by simpa using hs)]

/-- Numbers of the remaining dimensions after removing dimension `a`. -/
def shiftDown (a i : ℕ) : ℕ := if a < i then i - 1 else i

theorem flags_length (n : ℕ) (L : List ℕ) : (flags n L).length = n := by simp [flags]

theorem flags_get (n : ℕ) (L : List ℕ) (d : ℕ) (hd : d < n) :
    (flags n L)[d]? = some (decide (d ∈ L)) := by simp [flags, hd]

theorem flags_congr {n : ℕ} {L M : List ℕ} (h : ∀ d, d ∈ L ↔ d ∈ M) : flags n L = flags n M := by
  unfold flags
  simp only [h]

theorem flags_insert {n a : ℕ} {L : List ℕ} (ha : a < n) (hL : a ∉ L) :
    flags n (a :: L) = (flags (n - 1) (L.map (shiftDown a))).insertIdx a true := by
  apply List.ext_getElem?
  intro d
  by_cases hd : d < n
  · rw [flags_get _ _ _ hd, List.getElem?_insertIdx]
    have key : ∀ e, e ≠ a → ((e ∈ L) ↔ (if a < e then e - 1 else e) ∈ L.map (shiftDown a)) := by
      intro e he
      rw [List.mem_map]
      constructor
      · intro h; exact ⟨e, h, rfl⟩
      · rintro ⟨x, hx, hxe⟩
        have hxa : x ≠ a := by rintro rfl; exact hL hx
        unfold shiftDown at hxe
        have : x = e := by split_ifs at hxe <;> omega
        exact this ▸ hx
    rcases lt_trichotomy d a with h | h | h
    · rw [if_pos h, flags_get _ _ _ (by omega)]
      have := key d (by omega)
      rw [if_neg (by omega)] at this
      simp only [List.mem_cons, ← this]
      have : d ≠ a := by omega
      simp [this]
    · subst h
      simp [flags_length]
      omega
    · rw [if_neg (by omega), if_neg (by omega), flags_get _ _ _ (by omega)]
      have := key d (by omega)
      rw [if_pos (by omega)] at this
      simp only [List.mem_cons, ← this]
      have : d ≠ a := by omega
      simp [this]
  · rw [List.getElem?_eq_none (by rw [flags_length]; omega), List.getElem?_eq_none]
    rw [List.length_insertIdx, flags_length]
    split_ifs <;> omega

theorem shiftDown_nodup {a : ℕ} {L : List ℕ} (hL : a ∉ L) (h : L.Nodup) :
    (L.map (shiftDown a)).Nodup := by
  rw [List.nodup_map_iff_inj_on h]
  intro x hx y hy hxy
  have hxa : x ≠ a := by rintro rfl; exact hL hx
  have hya : y ≠ a := by rintro rfl; exact hL hy
  unfold shiftDown at hxy
  split_ifs at hxy <;> omega

theorem shiftDown_lt {a n : ℕ} {L : List ℕ} (hL : a ∉ L) (h : ∀ i ∈ L, i < n) (ha : a < n) :
    ∀ i ∈ L.map (shiftDown a), i < n - 1 := by
  intro i hi
  rw [List.mem_map] at hi
  obtain ⟨x, hx, rfl⟩ := hi
  have hxa : x ≠ a := by rintro rfl; exact hL hx
  have := h x hx
  unfold shiftDown
  split_ifs <;> omega

theorem unflagged_map {α β : Type} (g : α → β) (sel : List Bool) (l : List α) :
    unflagged sel (l.map g) = (unflagged sel l).map g := by
  induction sel generalizing l with
  | nil => simp [unflagged]
  | cons s sel ih =>
    cases l with
    | nil => simp [unflagged]
    | cons a l => cases s <;> simp [unflagged, ih]

theorem unflagged_mem {α : Type} {sel : List Bool} {l : List α} {x : α} (h : x ∈ unflagged sel l) :
    x ∈ l := by
  induction sel generalizing l with
  | nil => simp [unflagged] at h
  | cons s sel ih =>
    cases l with
    | nil => simp [unflagged] at h
    | cons a l =>
      cases s
      · simp only [unflagged, Bool.false_eq_true, if_false, List.mem_cons] at h ⊢
        exact h.imp id ih
      · simp only [unflagged, if_true] at h
        exact List.mem_cons_of_mem _ (ih h)

theorem unflagged_length {α β : Type} {sel : List Bool} {l : List α} {m : List β}
    (h : l.length = m.length) : (unflagged sel l).length = (unflagged sel m).length := by
  rw [← keep_eq, ← keep_eq]
  exact keep_length h

/-! ### Deleting axes -/

theorem delAll_desc {α : Type} {L : List ℕ} {l : List α} (hs : L.Pairwise (· > ·))
    (hL : ∀ i ∈ L, i < l.length) :
    delAll l (L.map Int.ofNat) = .ok (unflagged (flags l.length L) l) := by
  induction L generalizing l with
  | nil => simp [delAll, unflagged_none]
  | cons a L ih =>
    rw [List.pairwise_cons] at hs
    have ha := hL a (by simp)
    have hne : a ∉ L := fun h => lt_irrefl _ (hs.1 a h)
    have hdel : pyDel l (Int.ofNat a) = .ok (l.eraseIdx a) := by
      unfold pyDel
      have : pyIdx l.length (Int.ofNat a) = some a := pyIdx_nat ha
      rw [this]
    have hlen : (l.eraseIdx a).length = l.length - 1 := List.length_eraseIdx_of_lt ha
    simp only [List.map_cons, delAll, hdel, bind, Except.bind]
    rw [ih hs.2 (by
      intro i hi
      have := hs.1 i hi
      rw [hlen]
      omega)]
    rw [flags_insert ha hne, unflagged_insert ha (by rw [flags_length]; omega), hlen]
    congr 3
    conv_lhs => rw [← List.map_id L]
    apply List.map_congr_left
    intro i hi
    have := hs.1 i hi
    unfold shiftDown
    rw [if_neg (by omega)]
    rfl

theorem sortDesc_nat {L : List ℕ} (hn : L.Nodup) :
    ∃ M : List ℕ, sortDesc (L.map Int.ofNat) = M.map Int.ofNat ∧ M.Pairwise (· > ·) ∧
      ∀ i, i ∈ M ↔ i ∈ L := by
  refine ⟨(L.insertionSort (· ≤ ·)).reverse, ?_, ?_, ?_⟩
  · unfold sortDesc
    rw [List.map_reverse]
    congr 1
    have : List.map Int.ofNat (L.insertionSort (· ≤ ·)) =
        (L.map Int.ofNat).insertionSort (· ≤ ·) := by
      apply List.map_insertionSort
      intro a _ b _
      simp
    rw [this]
  · rw [List.pairwise_reverse]
    have h1 := List.pairwise_insertionSort (· ≤ ·) L
    have h2 : (L.insertionSort (· ≤ ·)).Nodup := (List.perm_insertionSort _ L).nodup_iff.2 hn
    exact (h1.and h2).imp fun h => lt_of_le_of_ne h.1 h.2
  · intro i
    rw [List.mem_reverse, (List.perm_insertionSort _ L).mem_iff]

theorem delAll_nat {α : Type} {L : List ℕ} {l : List α} (hn : L.Nodup) (hL : ∀ i ∈ L, i < l.length) :
    delAll l (sortDesc (L.map Int.ofNat)) = .ok (unflagged (flags l.length L) l) := by
  obtain ⟨M, h1, h2, h3⟩ := sortDesc_nat hn
  rw [h1, delAll_desc h2 (fun i hi => hL i ((h3 i).1 hi)), flags_congr h3]

theorem delAll_single {α : Type} {l : List α} {i : ℤ} {k : ℕ} (h : pyIdx l.length i = some k) :
    delAll l (sortDesc [i]) = .ok (unflagged (flags l.length [k]) l) := by
  have h1 : sortDesc [i] = [i] := rfl
  have hk := pyIdx_lt h
  rw [h1]
  have hdel : pyDel l i = .ok (l.eraseIdx k) := by
    unfold pyDel; rw [h]
  simp only [delAll, hdel, bind, Except.bind]
  rw [flags_insert hk (by simp), unflagged_insert hk (by rw [flags_length]; omega)]
  congr 1
  rw [List.map_nil, unflagged_none]
  rw [List.length_eraseIdx_of_lt hk]

theorem normAxes_of {n : ℕ} {l : List ℤ} {p : List ℕ}
    (h : List.Forall₂ (fun i k => pyIdx n i = some k) l p) (hp : p.Nodup) :
    normAxes n (some l) = .ok (flags n p) := by
  have : l.mapM (fun i => axisIdx n i) = .ok p := mapM_of_forall2 (h.imp fun _ _ => axisIdx_of)
  simp only [normAxes, this, bind, Except.bind]
  rw [if_pos hp]
  rfl

theorem flags_all (n : ℕ) : flags n (List.range n) = List.replicate n true := by
  apply List.ext_getElem
  · simp [flags]
  · intro i h1 h2
    simp [flags] at h1 ⊢
    exact h1

/-! ### Reducing -/

section
variable {K V : Type} [_root_.Field K] [LinearOrder K] [IsStrictOrderedRing K]

theorem oneCell (spl : Splines K) (name unit : String) {e0 e1 : K} (h : e0 ≠ e1) :
    mkAxis spl { name := name, unit := unit, extent := some (e0, e1), n := some 1 } =
      .ok ⟨name, unit, [e0, e1], [(e0 + e1) / 2], (e0, e1)⟩ := by
  have : linspace e0 e1 2 = [e0, e1] := by
    simp [linspace, List.range_succ]
  simp only [mkAxis, bind, Except.bind, pure, Except.pure]
  have h2 : ((1 : ℤ) + 1).toNat = 2 := rfl
  rw [if_neg (by decide)]
  simp [h2, this, gridOfNodes, mids]

theorem valid_extent_ne {ax : Axis K} (h : ValidAxis ax.gridNode ax.grid ax.extent)
    (hne : 0 < ax.len) : ax.extent.1 ≠ ax.extent.2 := by
  have h1 := h.first
  have h2 := h.last
  rw [List.head?_eq_getElem?] at h1
  rw [List.getLast?_eq_getElem?] at h2
  have hl := h.wf.1
  have hlen : ax.gridNode.length - 1 = ax.grid.length := by omega
  rw [hlen] at h2
  have key : ∀ r : K → K → Prop, (∀ a b c, r a b → r b c → r a c) →
      Interleave r ax.gridNode ax.grid → r ax.extent.1 ax.extent.2 := by
    intro r ht hr
    have := (List.pairwise_iff_getElem.1 (pairwise_of_mono ht (interleave_mono_nodes ht hr)))
      0 ax.grid.length (by omega) (by omega) hne
    rw [List.getElem?_eq_getElem (by omega)] at h1 h2
    rw [Option.some.inj h1, Option.some.inj h2] at this
    exact this
  rcases (wf_iff _ _).1 h.wf with hm | hm
  · exact ne_of_lt (key _ (fun _ _ _ => lt_trans) hm)
  · exact ne_of_gt (key (· > ·) (fun _ _ _ h1 h2 => lt_trans h2 h1) hm)

theorem shrinkAxes_eq (spl : Splines K) {l : List ℤ} {p : List ℕ} {axes : List (Axis K)}
    (h : List.Forall₂ (fun i k => pyIdx axes.length i = some k) l p)
    (hne : ∀ ax ∈ axes, ax.extent.1 ≠ ax.extent.2) :
    ∃ axes', shrinkAxes spl axes l = .ok axes' ∧ axes'.length = axes.length ∧
      ∀ d : ℕ, axes'[d]? = (axes[d]?).map fun ax => if d ∈ p then singleCell ax else ax := by
  induction l generalizing p axes with
  | nil =>
    cases h
    exact ⟨axes, rfl, rfl, fun d => by simp⟩
  | cons i l ih =>
    cases h with
    | cons h1 h2 =>
      rename_i k p
      have hk := pyIdx_lt h1
      have hget : axes[k]? = some axes[k] := List.getElem?_eq_getElem hk
      have hax := hne axes[k] (List.getElem_mem _)
      have e1 : pyGet axes i = .ok axes[k] := pyGet_of h1 hget
      have e2 := oneCell spl axes[k].name axes[k].unit hax
      have e3 : pySet axes i (singleCell axes[k]) = .ok (axes.set k (singleCell axes[k])) :=
        pySet_of _ h1
      obtain ⟨axes', i1, i2, i3⟩ := ih (axes := axes.set k (singleCell axes[k]))
        (by rw [List.length_set]; exact h2)
        (by
          intro ax hmem
          rcases List.mem_or_eq_of_mem_set hmem with hmem | rfl
          · exact hne ax hmem
          · exact hax)
      refine ⟨axes', ?_, by rw [i2, List.length_set], ?_⟩
      · simp only [shrinkAxes, e1, bind, Except.bind]
        rw [e2]
        simp only
        have : pySet axes i ⟨axes[k].name, axes[k].unit, [axes[k].extent.1, axes[k].extent.2],
            [(axes[k].extent.1 + axes[k].extent.2) / 2], axes[k].extent⟩ =
            .ok (axes.set k (singleCell axes[k])) := e3
        rw [this]
        exact i1
      · intro d
        rw [i3 d, List.getElem?_set]
        by_cases hd : k = d
        · subst hd
          rw [if_pos rfl, if_pos hk, hget]
          by_cases hdp : k ∈ p <;> simp [hdp, singleCell]
        · rw [if_neg hd]
          have : d ≠ k := fun h => hd h.symm
          simp [this]

theorem unflagged_lens {f : Field K V} (hf : f.Sound) (sel : List Bool) :
    (unflagged sel f.axes).map Axis.len = unflagged sel f.shape := by
  rw [← unflagged_map, hf.ok.lengths]

theorem reduce_sound (spl : Splines K) (red : List V → V) {f : Field K V} (hf : f.Sound)
    {l : List ℤ} {p : List ℕ} (h : List.Forall₂ (fun i k => pyIdx f.shape.length i = some k) l p)
    (hp : p.Nodup) (hpos : (∀ i ∈ l, 0 ≤ i) ∨ l.length ≤ 1)
    (h3 : (unflagged (flags f.shape.length p) f.shape).length ≤ 3) :
    f.reduce spl red (some l) false =
      .ok ⟨f.name, f.unit, f.matrix.reduce red (flags f.shape.length p),
        unflagged (flags f.shape.length p) f.axes, unflagged (flags f.shape.length p) f.ats,
        unflagged (flags f.shape.length p) f.tao⟩ := by
  have hdel : ∀ {α : Type} (a : List α), a.length = f.shape.length →
      delAll a (sortDesc l) = .ok (unflagged (flags f.shape.length p) a) := by
    intro α a ha
    rw [← ha] at h ⊢
    rcases hpos with hpos | hpos
    · have hl : l = p.map Int.ofNat := by
        clear hp h3
        induction h with
        | nil => rfl
        | cons h1 h2 ih =>
          rw [List.map_cons, ← ih (fun i hi => hpos i (List.mem_cons_of_mem _ hi))]
          congr 1
          have h0 := hpos _ (List.mem_cons_self ..)
          unfold pyIdx at h1
          rw [if_pos h0] at h1
          split_ifs at h1
          have := Option.some.inj h1
          have e : ∀ k : ℕ, Int.ofNat k = (k : ℤ) := fun _ => rfl
          rw [e]
          omega
      subst hl
      apply delAll_nat hp
      intro i hi
      rw [List.forall₂_map_left_iff, List.forall₂_same] at h
      exact pyIdx_lt (h i hi)
    · cases h with
      | nil => simp [sortDesc, delAll, unflagged_none]
      | cons h1 h2 =>
        cases h2 with
        | nil => exact delAll_single h1
        | cons _ _ => simp at hpos
  unfold Field.reduce
  simp only [Option.getD_some, Bool.false_eq_true, if_false]
  rw [hdel f.axes (ok_axes_length hf.ok), hdel f.tao hf.ok.origins, hdel f.ats hf.ok.states,
    normAxes_of h hp]
  simp only [bind, Except.bind]
  have hs : (f.matrix.reduce red (flags f.shape.length p)).shape =
      unflagged (flags f.shape.length p) f.shape := keep_eq _ _
  apply mkField_of_eq
  · rw [unflagged_lens hf, hs]
  · rw [hs]; exact h3

end

/-! ### Integrals -/

section
variable {K V : Type} [_root_.Field K] [AddCommGroup V] [Module K V]

theorem integral_sum {ι : Type} (t : Finset ι) (bs : List (List K)) (sel : List Bool)
    (g : ι → List ℕ → V) (idx : List ℕ) :
    integral bs sel (fun j => ∑ i ∈ t, g i j) idx = ∑ i ∈ t, integral bs sel (g i) idx := by
  induction bs generalizing sel g idx with
  | nil => simp [integral]
  | cons b bs ih =>
    cases sel with
    | nil => simp [integral]
    | cons s sel =>
      cases s with
      | true =>
        simp only [integral]
        rw [Finset.sum_comm]
        apply Finset.sum_congr rfl
        intro k _
        rw [ih, Finset.smul_sum]
      | false =>
        cases idx with
        | nil => simp [integral]
        | cons k idx =>
          simp only [integral]
          exact ih sel (fun i j => g i (k :: j)) idx

theorem integral_smul (c : K) (bs : List (List K)) (sel : List Bool) (g : List ℕ → V)
    (idx : List ℕ) : integral bs sel (fun j => c • g j) idx = c • integral bs sel g idx := by
  induction bs generalizing sel g idx with
  | nil => simp [integral]
  | cons b bs ih =>
    cases sel with
    | nil => simp [integral]
    | cons s sel =>
      cases s with
      | true =>
        simp only [integral]
        rw [Finset.smul_sum]
        apply Finset.sum_congr rfl
        intro k _
        rw [ih, smul_comm]
      | false =>
        cases idx with
        | nil => simp [integral]
        | cons k idx =>
          simp only [integral]
          exact ih sel (fun j => g (k :: j)) idx

theorem integral_add (bs : List (List K)) (sel : List Bool) (g h : List ℕ → V)
    (idx : List ℕ) :
    integral bs sel (fun j => g j + h j) idx = integral bs sel g idx + integral bs sel h idx := by
  induction bs generalizing sel g h idx with
  | nil => simp [integral]
  | cons b bs ih =>
    cases sel with
    | nil => simp [integral]
    | cons s sel =>
      cases s with
      | true =>
        simp only [integral]
        rw [← Finset.sum_add_distrib]
        apply Finset.sum_congr rfl
        intro k _
        rw [ih, smul_add]
      | false =>
        cases idx with
        | nil => simp [integral]
        | cons k idx =>
          simp only [integral]
          exact ih sel (fun j => g (k :: j)) (fun j => h (k :: j)) idx

theorem integral_none (bs : List (List K)) (g : List ℕ → V) (idx : List ℕ)
    (h : idx.length = bs.length) : integral bs (flags bs.length []) g idx = g idx := by
  have : flags bs.length [] = bs.map fun _ => false := by
    apply List.ext_getElem <;> simp [flags]
  rw [this]
  clear this
  induction bs generalizing g idx with
  | nil =>
    simp at h
    subst h
    simp [integral]
  | cons b bs ih =>
    cases idx with
    | nil => simp at h
    | cons k idx =>
      simp only [List.map_cons, integral]
      exact ih (fun j => g (k :: j)) idx (by simpa using h)

theorem integral_insert {a : ℕ} {bs : List (List K)} {sel : List Bool} (g : List ℕ → V)
    {idx : List ℕ} (h1 : bs.length = sel.length + 1) (h2 : a ≤ sel.length)
    (h3 : idx.length = sel.count false) :
    integral bs (sel.insertIdx a true) g idx =
      integral (bs.eraseIdx a) sel (fun j => ∑ i ∈ Finset.range (bs.getD a []).length,
        (bs.getD a []).getD i 0 • g (j.insertIdx a i)) idx := by
  induction a generalizing bs sel g idx with
  | zero =>
    cases bs with
    | nil => simp at h1
    | cons b bs =>
      simp only [List.insertIdx_zero, integral, List.eraseIdx_cons_zero, List.getD_cons_zero]
      rw [integral_sum]
      apply Finset.sum_congr rfl
      intro i _
      rw [integral_smul]
  | succ a ih =>
    cases bs with
    | nil => simp at h1
    | cons b bs =>
      cases sel with
      | nil => simp at h2
      | cons s sel =>
        simp only [List.length_cons, Nat.add_right_cancel_iff] at h1
        simp only [List.length_cons, Nat.add_le_add_iff_right] at h2
        simp only [List.insertIdx_succ_cons, List.eraseIdx_cons_succ, List.getD_cons_succ]
        cases s with
        | true =>
          simp only [integral]
          apply Finset.sum_congr rfl
          intro i _
          rw [ih (fun j => g (i :: j)) h1 h2 (by simpa using h3)]
          rfl
        | false =>
          cases idx with
          | nil => simp at h3
          | cons k idx =>
            simp only [integral]
            rw [ih (fun j => g (k :: j)) h1 h2 (by simpa using h3)]
            rfl

theorem unflagged_count {α : Type} {sel : List Bool} {l : List α} (h : l.length = sel.length) :
    (unflagged sel l).length = sel.count false := by
  induction sel generalizing l with
  | nil => simp [unflagged]
  | cons s sel ih =>
    cases l with
    | nil => simp at h
    | cons a l => cases s <;> simp [unflagged, ih (by simpa using h)]

end

section
variable {K V : Type} [_root_.Field K] [LinearOrder K] [IsStrictOrderedRing K] [AddCommGroup V]
  [Module K V]

theorem boxes_eq (ax : Axis K) : Axis.boxes ax = cellSizes ax := by
  unfold Axis.boxes cellSizes
  rw [List.zipWith_comm]

theorem cellSizes_length {ax : Axis K} (h : ValidAxis ax.gridNode ax.grid ax.extent) :
    (cellSizes ax).length = ax.len := by
  have := h.wf.1
  simp [cellSizes, Axis.len, this]

theorem lsum (n : ℕ) (g : ℕ → V) :
    ((List.range n).map g).sum = ∑ i ∈ Finset.range n, g i := rfl

theorem integrateStep_sound {f : Field K V} (hf : f.Sound) {a : ℤ} {k : ℕ}
    (ha : pyIdx f.shape.length a = some k) :
    ∃ r, f.integrateStep a = .ok r ∧ r.Sound ∧ r.name = f.name ∧ r.unit = f.unit ∧
      r.shape = f.shape.eraseIdx k ∧ r.axes = f.axes.eraseIdx k ∧ r.ats = f.ats.eraseIdx k ∧
      r.tao = f.tao.eraseIdx k ∧
      ∀ idx, r.matrix.at' idx = ∑ i ∈ Finset.range ((f.axes.map cellSizes).getD k []).length,
        ((f.axes.map cellSizes).getD k []).getD i 0 • f.matrix.at' (idx.insertIdx k i) := by
  have hk := pyIdx_lt ha
  have hl := ok_axes_length hf.ok
  have hget : f.axes[k]? = some f.axes[k] := List.getElem?_eq_getElem (by omega)
  have hax := hf.valid f.axes[k] (List.getElem_mem _)
  have e1 : pyGet f.axes a = .ok f.axes[k] := pyGet_of (by rw [hl]; exact ha) hget
  have e2 : pyIdx f.dims.toNat a = some k := by rw [dims_sound hf]; exact ha
  have hs : f.shape[k]? = some (Axis.boxes f.axes[k]).length := by
    rw [boxes_eq, cellSizes_length hax, ← hf.ok.lengths, List.getElem?_map, hget]
    rfl
  have hdel : ∀ {α : Type} (l : List α), l.length = f.shape.length → pyDel l a = .ok (l.eraseIdx k) := by
    intro α l hl
    unfold pyDel
    rw [hl, ha]
  have hD : (f.axes.map cellSizes).getD k [] = Axis.boxes f.axes[k] := by
    rw [List.getD_eq_getElem?_getD, List.getElem?_map, hget, boxes_eq]
    rfl
  refine ⟨{ f with
      matrix := ⟨f.shape.eraseIdx k, fun idx => ((List.range (Axis.boxes f.axes[k]).length).map fun j =>
        (Axis.boxes f.axes[k]).getD j 0 • f.matrix.at' (idx.insertIdx k j)).sum⟩
      axes := f.axes.eraseIdx k, ats := f.ats.eraseIdx k, tao := f.tao.eraseIdx k },
    ?_, ?_, rfl, rfl, rfl, rfl, rfl, rfl, ?_⟩
  · unfold Field.integrateStep
    rw [e1]
    simp only [bind, Except.bind]
    rw [e2]
    simp only
    rw [hs]
    simp only [ne_eq, not_true_eq_false, if_false]
    rw [hdel f.axes hl, hdel f.ats hf.ok.states, hdel f.tao hf.ok.origins]
    rfl
  · refine ⟨⟨?_, ?_, ?_⟩, ?_, ?_⟩
    · show (f.axes.eraseIdx k).map Axis.len = f.shape.eraseIdx k
      rw [← List.eraseIdx_map, hf.ok.lengths]
    · show (f.ats.eraseIdx k).length = (f.shape.eraseIdx k).length
      rw [List.length_eraseIdx, List.length_eraseIdx, hf.ok.states]
    · show (f.tao.eraseIdx k).length = (f.shape.eraseIdx k).length
      rw [List.length_eraseIdx, List.length_eraseIdx, hf.ok.origins]
    · intro ax hmem
      exact hf.valid ax (List.mem_of_mem_eraseIdx hmem)
    · intro h0
      exact hf.nonempty (List.mem_of_mem_eraseIdx h0)
  · intro idx
    rw [hD, ← lsum]

theorem fastLoop_sound {f : Field K V} (hf : f.Sound) {L : List ℕ} (hn : L.Nodup)
    (hL : ∀ i ∈ L, i < f.shape.length) :
    ∃ r, fastLoop f (L.map Int.ofNat) = .ok r ∧ r.Sound ∧ r.name = f.name ∧ r.unit = f.unit ∧
      r.shape = unflagged (flags f.shape.length L) f.shape ∧
      r.axes = unflagged (flags f.shape.length L) f.axes ∧
      r.ats = unflagged (flags f.shape.length L) f.ats ∧
      r.tao = unflagged (flags f.shape.length L) f.tao ∧
      ∀ idx, idx.length = r.shape.length → r.matrix.at' idx =
        integral (f.axes.map cellSizes) (flags f.shape.length L) f.matrix.at' idx := by
  generalize hm : L.length = m
  induction m generalizing f L with
  | zero =>
    have : L = [] := List.length_eq_zero_iff.1 hm
    subst this
    have hl := ok_axes_length hf.ok
    refine ⟨f, by simp [fastLoop], hf, rfl, rfl, ?_, ?_, ?_, ?_, ?_⟩
    · rw [unflagged_none _ _ rfl]
    · rw [unflagged_none _ _ hl]
    · rw [unflagged_none _ _ hf.ok.states]
    · rw [unflagged_none _ _ hf.ok.origins]
    · intro idx hidx
      have := integral_none (f.axes.map cellSizes) f.matrix.at' idx (by simp [hidx, hl])
      rw [List.length_map, hl] at this
      exact this.symm
  | succ m ih =>
    cases L with
    | nil => simp at hm
    | cons a L =>
      rw [List.nodup_cons] at hn
      have ha := hL a (by simp)
      have hl := ok_axes_length hf.ok
      obtain ⟨r, h1, h2, h3, h4, h5, h6, h7, h8, h9⟩ := integrateStep_sound hf (pyIdx_nat ha)
      have hlen : r.shape.length = f.shape.length - 1 := by
        rw [h5, List.length_eraseIdx_of_lt ha]
      obtain ⟨r', g1, g2, g3, g4, g5, g6, g7, g8, g9⟩ := ih h2 (L := L.map (shiftDown a))
        (shiftDown_nodup hn.1 hn.2)
        (by rw [hlen]; exact shiftDown_lt hn.1 (fun i hi => hL i (List.mem_cons_of_mem _ hi)) ha)
        (by simpa using hm)
      rw [hlen] at g5 g6 g7 g8 g9
      have hins := flags_insert ha hn.1
      refine ⟨r', ?_, g2, g3.trans h3, g4.trans h4, ?_, ?_, ?_, ?_, ?_⟩
      · rw [List.map_cons, fastLoop]
        have : f.integrateStep (Int.ofNat a) = .ok r := h1
        rw [this]
        simp only [bind, Except.bind]
        rw [← g1]
        congr 1
        rw [List.map_map, List.map_map]
        apply List.map_congr_left
        intro i hi
        simp only [Function.comp, shiftDown]
        have e : ∀ k : ℕ, Int.ofNat k = (k : ℤ) := fun _ => rfl
        simp only [e]
        split_ifs <;> omega
      · rw [g5, h5, hins, unflagged_insert ha (by rw [flags_length]; omega)]
      · rw [g6, h6, hins, unflagged_insert (by omega) (by rw [flags_length]; omega)]
      · rw [g7, h7, hins, unflagged_insert (by rw [hf.ok.states]; omega) (by rw [flags_length]; omega)]
      · rw [g8, h8, hins, unflagged_insert (by rw [hf.ok.origins]; omega) (by rw [flags_length]; omega)]
      · intro idx hidx
        rw [g9 idx hidx, hins, integral_insert _ (by rw [flags_length, List.length_map]; omega)
          (by rw [flags_length]; omega), h6, List.eraseIdx_map]
        · congr 1
          funext j
          exact h9 j
        · rw [hidx, g5, h5]
          apply unflagged_count
          rw [flags_length, List.length_eraseIdx_of_lt ha]

theorem integrateFast_sound {f : Field K V} (hf : f.Sound) {L : List ℕ}
    (hL : ∀ i ∈ L, i < f.shape.length) :
    ∃ r, f.integrateFast (L.map Int.ofNat) = .ok r ∧ r.Sound ∧ r.name = f.name ∧ r.unit = f.unit ∧
      r.shape = unflagged (flags f.shape.length L) f.shape ∧
      r.axes = unflagged (flags f.shape.length L) f.axes ∧
      r.ats = unflagged (flags f.shape.length L) f.ats ∧
      r.tao = unflagged (flags f.shape.length L) f.tao ∧
      ∀ idx, idx.length = r.shape.length → r.matrix.at' idx =
        integral (f.axes.map cellSizes) (flags f.shape.length L) f.matrix.at' idx := by
  have hd : (L.map Int.ofNat).dedup = L.dedup.map Int.ofNat :=
    List.dedup_map_of_injective Int.ofNat_injective L
  have hkeys : (L.dedup.map Int.ofNat).mapM (fun i => do
      let a ← pyGet f.shape i
      pure (a, i)) = (.ok (L.dedup.map fun i => (f.shape.getD i 0, (i : ℤ))) : Res _) := by
    apply mapM_of_forall2
    rw [List.forall₂_map_left_iff, List.forall₂_map_right_iff, List.forall₂_same]
    intro i hi
    have hi' := hL i (List.mem_dedup.1 hi)
    have : pyGet f.shape (Int.ofNat i) = .ok f.shape[i] :=
      pyGet_of (pyIdx_nat hi') (List.getElem?_eq_getElem hi')
    rw [this]
    simp only [bind, Except.bind, pure, Except.pure]
    rw [List.getD_eq_getElem _ _ hi']
    rfl
  let M := ((L.dedup.map fun i => (f.shape.getD i 0, i)).insertionSort
    (fun p q => p.1 ≤ q.1)).reverse.map (·.2)
  have hM : M.Perm L.dedup := by
    have h1 := (List.perm_insertionSort (fun p q : ℕ × ℕ => p.1 ≤ q.1)
      (L.dedup.map fun i => (f.shape.getD i 0, i)))
    have h2 := ((List.reverse_perm _).trans h1).map (·.2)
    rw [List.map_map] at h2
    have : List.map ((fun x : ℕ × ℕ => x.2) ∘ fun i => (f.shape.getD i 0, i)) L.dedup = L.dedup := by
      conv_rhs => rw [← List.map_id L.dedup]
      rfl
    rw [this] at h2
    exact h2
  obtain ⟨r, h1, h2, h3, h4, h5, h6, h7, h8, h9⟩ := fastLoop_sound hf (L := M)
    (hM.nodup_iff.2 (List.nodup_dedup L))
    (fun i hi => hL i (List.mem_dedup.1 (hM.mem_iff.1 hi)))
  have hfl : flags f.shape.length M = flags f.shape.length L :=
    flags_congr fun d => by rw [hM.mem_iff, List.mem_dedup]
  rw [hfl] at h5 h6 h7 h8 h9
  refine ⟨r, ?_, h2, h3, h4, h5, h6, h7, h8, h9⟩
  unfold Field.integrateFast
  rw [hd]
  have hsort : ((L.dedup.map fun i => (f.shape.getD i 0, (i : ℤ))).insertionSort
      (fun p q => p.1 ≤ q.1)).reverse.map (·.2) = M.map Int.ofNat := by
    have : (L.dedup.map fun i => (f.shape.getD i 0, (i : ℤ))).insertionSort
        (fun p q => p.1 ≤ q.1) = ((L.dedup.map fun i => (f.shape.getD i 0, i)).insertionSort
        (fun p q => p.1 ≤ q.1)).map fun p => (p.1, (p.2 : ℤ)) := by
      have := List.map_insertionSort (fun p q : ℕ × ℕ => p.1 ≤ q.1)
        (fun p q : ℕ × ℤ => p.1 ≤ q.1) (fun p : ℕ × ℕ => (p.1, (p.2 : ℤ)))
        (L.dedup.map fun i => (f.shape.getD i 0, i)) (fun a _ b _ => Iff.rfl)
      rw [this, List.map_map]
      rfl
    rw [this]
    simp only [M, List.map_reverse, List.map_map]
    rfl
  rw [← h1, ← hsort]
  simp only [bind, Except.bind] at hkeys ⊢
  rw [hkeys]

/-! ### The constant method -/

/-- The product of the cell sizes along the given dimensions. -/
def weight (bs : List (List K)) (L : List ℕ) (j : List ℕ) : K :=
  (L.map fun d => (bs.getD d []).getD (j.getD d 0) 0).prod

theorem weight_perm {bs : List (List K)} {L M : List ℕ} (h : L.Perm M) (j : List ℕ) :
    weight bs L j = weight bs M j := (h.map _).prod_eq

theorem mulBoxes_sound {orig f : Field K V} (ho : orig.Sound) (h1 : f.axes = orig.axes)
    (h2 : f.shape = orig.shape) (h3 : f.shape.length ≤ 3) {k : ℕ} (hk : k < orig.shape.length) :
    f.mulBoxes orig (Int.ofNat k) = .ok ⟨f.name, f.unit, ⟨f.shape, fun idx =>
      ((orig.axes.map cellSizes).getD k []).getD (idx.getD k 0) 0 • f.matrix.at' idx⟩,
      f.axes, f.ats, f.tao⟩ := by
  have hl := ok_axes_length ho.ok
  have hget : orig.axes[k]? = some orig.axes[k] := List.getElem?_eq_getElem (by omega)
  have hax := ho.valid orig.axes[k] (List.getElem_mem _)
  have ha : pyIdx orig.shape.length (Int.ofNat k) = some k := pyIdx_nat hk
  have e1 : pyGet orig.axes (Int.ofNat k) = .ok orig.axes[k] :=
    pyGet_of (by rw [hl]; exact ha) hget
  have e2 : pyIdx orig.dims.toNat (Int.ofNat k) = some k := by rw [dims_sound ho]; exact ha
  have hs : f.shape[k]? = some (Axis.boxes orig.axes[k]).length := by
    rw [h2, boxes_eq, cellSizes_length hax, ← ho.ok.lengths, List.getElem?_map, hget]
    rfl
  have hD : (orig.axes.map cellSizes).getD k [] = Axis.boxes orig.axes[k] := by
    rw [List.getD_eq_getElem?_getD, List.getElem?_map, hget, boxes_eq]
    rfl
  unfold Field.mulBoxes
  rw [e1]
  simp only [bind, Except.bind]
  rw [e2]
  simp only
  rw [hs]
  simp only [ne_eq, not_true_eq_false, if_false, hD]
  exact mkField_of_eq (by rw [h1, ho.ok.lengths, h2]) h3

theorem mulAllBoxes_sound {orig : Field K V} (ho : orig.Sound) (h3 : orig.shape.length ≤ 3)
    {L : List ℕ} (hL : ∀ i ∈ L, i < orig.shape.length) {f : Field K V} (h1 : f.axes = orig.axes)
    (h2 : f.shape = orig.shape) :
    ∃ g, mulAllBoxes orig f (L.map Int.ofNat) = .ok ⟨f.name, f.unit, ⟨f.shape, g⟩, f.axes, f.ats, f.tao⟩ ∧
      ∀ idx, g idx = weight (orig.axes.map cellSizes) L idx • f.matrix.at' idx := by
  induction L generalizing f with
  | nil =>
    refine ⟨f.matrix.at', ?_, ?_⟩
    · simp [mulAllBoxes, Field.shape]
    · intro idx; simp [weight]
  | cons k L ih =>
    have hk := hL k (by simp)
    have e := mulBoxes_sound ho h1 h2 (by rw [h2]; exact h3) hk
    obtain ⟨g, g1, g2⟩ := ih (fun i hi => hL i (List.mem_cons_of_mem _ hi))
      (f := ⟨f.name, f.unit, ⟨f.shape, fun idx =>
      ((orig.axes.map cellSizes).getD k []).getD (idx.getD k 0) 0 • f.matrix.at' idx⟩,
      f.axes, f.ats, f.tao⟩) h1 h2
    refine ⟨g, ?_, ?_⟩
    · simp only [List.map_cons, mulAllBoxes, bind, Except.bind]
      rw [e]
      exact g1
    · intro idx
      rw [g2 idx]
      simp only [weight, List.map_cons, List.prod_cons]
      rw [smul_smul, mul_comm]

theorem weight_cons (b : List K) (bs : List (List K)) (L : List ℕ) (hn : L.Nodup) (i : ℕ) (j : List ℕ) :
    weight (b :: bs) L (i :: j) = (if 0 ∈ L then b.getD i 0 else 1) *
      weight bs ((L.filter (· ≠ 0)).map (· - 1)) j := by
  induction L with
  | nil => simp [weight]
  | cons k L ih =>
    rw [List.nodup_cons] at hn
    have h := ih hn.2
    simp only [weight, List.map_cons, List.prod_cons] at h ⊢
    rw [h]
    cases k with
    | zero =>
      rw [if_neg hn.1]
      simp
    | succ k =>
      simp only [List.mem_cons]
      simp
      split_ifs <;> ring

theorem flags_succ (n : ℕ) (L : List ℕ) :
    flags (n + 1) L = decide (0 ∈ L) :: flags n ((L.filter (· ≠ 0)).map (· - 1)) := by
  unfold flags
  rw [List.range_succ_eq_map]
  simp only [List.map_cons, List.map_map]
  congr 1
  apply List.map_congr_left
  intro d _
  simp only [Function.comp, decide_eq_decide, List.mem_map, List.mem_filter, decide_eq_true_eq,
    Nat.succ_eq_add_one]
  constructor
  · intro h
    exact ⟨d + 1, ⟨h, by omega⟩, by omega⟩
  · rintro ⟨a, ⟨h1, h2⟩, h3⟩
    have : d + 1 = a := by omega
    rw [this]; exact h1

theorem sum_flatMap' {α : Type} (l : List α) (g : α → List V) :
    (l.flatMap g).sum = (l.map fun a => (g a).sum).sum := by
  induction l with
  | nil => rfl
  | cons a l ih => simp [List.flatMap_cons, ih]

theorem fibre_integral {bs : List (List K)} {L : List ℕ} (hn : L.Nodup) (hL : ∀ i ∈ L, i < bs.length)
    (g : List ℕ → V) {idx : List ℕ} (h : idx.length = (flags bs.length L).count false) :
    ((fibre (bs.map List.length) (flags bs.length L) idx).map fun j => weight bs L j • g j).sum =
      integral bs (flags bs.length L) g idx := by
  induction bs generalizing L g idx with
  | nil =>
    have : L = [] := List.eq_nil_iff_forall_not_mem.2 fun i hi => by simpa using hL i hi
    subst this
    simp [fibre, integral, weight, flags]
  | cons b bs ih =>
    have hn' : ((L.filter (· ≠ 0)).map (· - 1)).Nodup := by
      rw [List.nodup_map_iff_inj_on (hn.filter _)]
      intro x hx y hy hxy
      simp only [List.mem_filter, decide_eq_true_eq] at hx hy
      omega
    have hL' : ∀ i ∈ ((L.filter (· ≠ 0)).map (· - 1)), i < bs.length := by
      intro i hi
      simp only [List.mem_map, List.mem_filter, decide_eq_true_eq] at hi
      obtain ⟨a, ⟨h1, h2⟩, rfl⟩ := hi
      have := hL a h1
      simp at this
      omega
    rw [List.length_cons, flags_succ] at h ⊢
    by_cases h0 : 0 ∈ L
    · simp only [h0, decide_true, List.map_cons, fibre, integral] at h ⊢
      rw [List.map_flatMap, sum_flatMap', lsum]
      apply Finset.sum_congr rfl
      intro i _
      rw [List.map_map]
      rw [← ih hn' hL' _ (by simpa using h), List.smul_sum]
      rw [List.map_map]
      congr 2
      funext j
      simp only [Function.comp]
      rw [weight_cons b bs L hn, if_pos h0, mul_smul]
    · cases idx with
      | nil => simp [h0] at h
      | cons i idx =>
        simp only [h0, decide_false, List.map_cons, fibre, integral, List.headD_cons,
          List.tail_cons] at h ⊢
        rw [List.map_map]
        rw [← ih hn' hL' _ (by simpa using h)]
        congr 2
        funext j
        simp only [Function.comp]
        rw [weight_cons b bs L hn, if_neg h0, one_mul]

theorem integrateConstant_sound (spl : Splines K) {f : Field K V} (hf : f.Sound)
    (h3 : f.shape.length ≤ 3) {L : List ℕ} (hL : ∀ i ∈ L, i < f.shape.length) :
    ∃ r, f.integrateConstant spl (L.map Int.ofNat) = .ok r ∧ r.name = f.name ∧ r.unit = f.unit ∧
      r.shape = unflagged (flags f.shape.length L) f.shape ∧
      r.axes = unflagged (flags f.shape.length L) f.axes ∧
      r.ats = unflagged (flags f.shape.length L) f.ats ∧
      r.tao = unflagged (flags f.shape.length L) f.tao ∧
      ∀ idx, idx.length = r.shape.length → r.matrix.at' idx =
        integral (f.axes.map cellSizes) (flags f.shape.length L) f.matrix.at' idx := by
  have hl := ok_axes_length hf.ok
  have hd : (L.map Int.ofNat).dedup.insertionSort (· ≤ ·) =
      (L.dedup.insertionSort (· ≤ ·)).map Int.ofNat := by
    rw [List.dedup_map_of_injective Int.ofNat_injective L]
    symm
    apply List.map_insertionSort
    intro a _ b _
    simp
  have hperm := List.perm_insertionSort (· ≤ ·) L.dedup
  generalize hM : L.dedup.insertionSort (· ≤ ·) = M at hd hperm
  have hMn : M.Nodup := hperm.nodup_iff.2 (List.nodup_dedup L)
  have hML : ∀ i ∈ M, i < f.shape.length :=
    fun i hi => hL i (List.mem_dedup.1 (hperm.mem_iff.1 hi))
  have hfl : flags f.shape.length M = flags f.shape.length L :=
    flags_congr fun d => by rw [hperm.mem_iff, List.mem_dedup]
  obtain ⟨g, g1, g2⟩ := mulAllBoxes_sound hf h3 (L := M.reverse)
    (fun i hi => hML i (List.mem_reverse.1 hi)) (f := f) rfl rfl
  have hf' : (⟨f.name, f.unit, ⟨f.shape, g⟩, f.axes, f.ats, f.tao⟩ : Field K V).Sound :=
    ⟨hf.ok, hf.valid, hf.nonempty⟩
  have hred := reduce_sound spl List.sum hf' (l := M.map Int.ofNat) (p := M)
    (by
      rw [List.forall₂_map_left_iff, List.forall₂_same]
      intro i hi
      exact pyIdx_nat (hML i hi)) hMn (Or.inl (by
      intro i hi
      rw [List.mem_map] at hi
      obtain ⟨a, _, rfl⟩ := hi
      exact Int.natCast_nonneg a))
    (by
      refine le_trans ?_ h3
      rw [unflagged_count (flags_length _ _).symm]
      refine le_trans List.count_le_length ?_
      rw [flags_length]
      exact le_refl _)
  have hsh : (⟨f.name, f.unit, ⟨f.shape, g⟩, f.axes, f.ats, f.tao⟩ : Field K V).shape = f.shape := rfl
  simp only [hsh, hfl] at hred
  refine ⟨⟨f.name, f.unit, Arr.reduce List.sum ⟨f.shape, g⟩ (flags f.shape.length L),
      unflagged (flags f.shape.length L) f.axes, unflagged (flags f.shape.length L) f.ats,
      unflagged (flags f.shape.length L) f.tao⟩, ?_, rfl, rfl, ?_, rfl, rfl, rfl, ?_⟩
  · unfold Field.integrateConstant
    simp only [hd]
    rw [← List.map_reverse, g1]
    exact hred
  · exact keep_eq _ _
  · intro idx hidx
    have hbs : (f.axes.map cellSizes).map List.length = f.shape := by
      rw [← hf.ok.lengths, List.map_map]
      apply List.map_congr_left
      intro ax hax
      exact cellSizes_length (hf.valid ax hax)
    have hlen : (f.axes.map cellSizes).length = f.shape.length := by simp [hl]
    have hidx' : idx.length = (flags f.shape.length L).count false := by
      rw [hidx]
      show (keep (flags f.shape.length L) f.shape).length = _
      rw [keep_eq]
      exact unflagged_count (flags_length _ _).symm
    have key := fibre_integral (bs := f.axes.map cellSizes) (L := M) hMn
      (by rw [hlen]; exact hML) f.matrix.at' (idx := idx) (by rw [hlen, hfl]; exact hidx')
    rw [hbs, hlen, hfl] at key
    rw [← key]
    show ((fibre f.shape (flags f.shape.length L) idx).map g).sum = _
    congr 2
    funext j
    rw [g2 j, weight_perm (List.reverse_perm M)]

theorem inBounds_cons {n i : ℕ} {s idx : List ℕ} :
    InBounds (n :: s) (i :: idx) ↔ i < n ∧ InBounds s idx := by
  constructor
  · rintro ⟨h1, h2⟩
    refine ⟨h2 0 i n rfl rfl, by simpa using h1, ?_⟩
    intro d a b ha hb
    exact h2 (d + 1) a b (by simpa using ha) (by simpa using hb)
  · rintro ⟨h0, h1, h2⟩
    refine ⟨by simpa using h1, ?_⟩
    intro d a b ha hb
    cases d with
    | zero => simp at ha hb; omega
    | succ d => exact h2 d a b (by simpa using ha) (by simpa using hb)

theorem integral_congr {bs : List (List K)} {sel : List Bool} (hs : sel.length = bs.length)
    {g h : List ℕ → V} (hgh : ∀ j, InBounds (bs.map List.length) j → g j = h j) {idx : List ℕ}
    (hidx : InBounds (unflagged sel (bs.map List.length)) idx) :
    integral bs sel g idx = integral bs sel h idx := by
  induction bs generalizing sel g h idx with
  | nil =>
    have : sel = [] := by simpa using hs
    subst this
    simp only [integral]
    exact hgh [] ⟨rfl, by simp⟩
  | cons b bs ih =>
    cases sel with
    | nil => simp at hs
    | cons s sel =>
      cases s with
      | true =>
        simp only [integral]
        apply Finset.sum_congr rfl
        intro i hi
        rw [ih (by simpa using hs) (g := fun j => g (i :: j)) (h := fun j => h (i :: j))]
        · intro j hj
          exact hgh _ (inBounds_cons.2 ⟨by simpa using hi, hj⟩)
        · simpa [unflagged] using hidx
      | false =>
        cases idx with
        | nil =>
          have := hidx.1
          simp [unflagged] at this
        | cons i idx =>
          simp only [integral]
          simp only [List.map_cons, unflagged, Bool.false_eq_true, if_false] at hidx
          rw [inBounds_cons] at hidx
          apply ih (by simpa using hs) _ hidx.2
          intro j hj
          exact hgh _ (inBounds_cons.2 ⟨hidx.1, hj⟩)

end

end Postpic.Fields
