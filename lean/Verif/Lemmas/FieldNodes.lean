import Verif.Lemmas.Field

/-!
# Lemmas about fields: every axis has one more node than points
-/

set_option autoImplicit false
set_option linter.unusedSectionVars false

namespace Postpic.Fields

open Postpic Postpic.Axes Postpic.Spec

variable {K V : Type} [_root_.Field K] [LinearOrder K]

/-- One more node than grid points. -/
def NodesOk (ax : Axis K) : Prop := ax.gridNode.length = ax.grid.length + 1

/-- All axes of a field. -/
def Field.NodesOk (f : Field K V) : Prop := ∀ ax ∈ f.axes, Fields.NodesOk ax

theorem mkAxis_facts {spl : Splines K} {a : AxisArgs K} {ax : Axis K} (h : mkAxis spl a = .ok ax) :
    ax.name = a.name ∧ ax.unit = a.unit ∧ (∀ l, a.gridNode = some l → ax.gridNode = l) ∧
    (∀ l, a.grid = some l → ax.grid = l) ∧ (∀ n, a.n = some n → n = ax.grid.length) ∧
    (∀ e, a.extent = some e → ax.extent = e) ∧
    ax.gridNode.head? = some ax.extent.1 ∧ ax.gridNode.getLast? = some ax.extent.2 := by
  obtain ⟨name, unit, gn, g, e, n⟩ := a
  rcases gn with _ | gn <;> rcases g with _ | g <;> rcases e with _ | e <;> rcases n with _ | n <;>
    simp only [mkAxis, bind, Except.bind, pure, Except.pure, throw, throwThe,
      MonadExceptOf.throw] at h <;>
    (repeat' split at h) <;> simp_all <;> (subst h; simp_all)
  all_goals
    rw [Prod.ext_iff]
    simp_all

theorem mkAxis_extent_nodes {spl : Splines K} {name unit : String} {e : K × K} {n : ℤ} {ax : Axis K}
    (h : mkAxis spl { name := name, unit := unit, extent := some e, n := some n } = .ok ax) :
    NodesOk ax ∧ (ax.len : ℤ) = n ∧ ax.gridNode = linspace e.1 e.2 (n + 1).toNat := by
  have hn := (mkAxis_facts h).2.2.2.2.1 n rfl
  have hg : ax.gridNode = linspace e.1 e.2 (n + 1).toNat := by
    simp only [mkAxis, bind, Except.bind, pure, Except.pure, throw, throwThe,
      MonadExceptOf.throw] at h
    (repeat' split at h) <;> simp_all <;> (subst h; simp_all)
  refine ⟨?_, hn.symm, hg⟩
  unfold NodesOk
  rw [hg]
  simp [linspace]
  omega

theorem mkAxis_grid_nodes {spl : Splines K} (hspl : ∀ g, (spl.inner g).length + 1 = g.length)
    {name unit : String} {g : List K} {ax : Axis K}
    (h : mkAxis spl { name := name, unit := unit, grid := some g } = .ok ax) : NodesOk ax := by
  have hg := (mkAxis_facts h).2.2.2.1 g rfl
  have hi : g ≠ [] → (innerNodes spl g).length + 1 = g.length := by
    intro hne
    unfold innerNodes
    split_ifs
    · exact hspl g
    · have := List.length_pos_iff.2 hne
      simp [mids]
      omega
  have hn : ∃ ns, nodesOfGrid spl g none = .ok ns ∧ ax.gridNode = ns := by
    simp only [mkAxis, bind, Except.bind, pure, Except.pure, throw, throwThe,
      MonadExceptOf.throw] at h
    (repeat' split at h) <;> simp_all <;> (subst h; simp_all)
  obtain ⟨ns, h1, h2⟩ := hn
  unfold NodesOk
  rw [hg, h2]
  cases g with
  | nil => simp [nodesOfGrid] at h1
  | cons g0 g =>
    have hi := hi (by simp)
    simp only [nodesOfGrid] at h1
    split_ifs at h1 <;> simp at h1 <;> subst h1 <;> simp at hi ⊢ <;> omega

/-! ### Slices -/

theorem take_drop_length {α : Type} (l : List α) (s t : ℕ) :
    ((l.take t).drop s).length = min t l.length - s := by simp

theorem getSlice_fwd_nodes {spl : Splines K} {ax ax' : Axis K} {s : Slice} (hax : NodesOk ax)
    (hb : s.backward = false) (hs : ∀ i, s.start = some i → 0 ≤ i)
    (h : ax.getSlice spl s = .ok ax') : NodesOk ax' := by
  obtain ⟨-, -, h1, h2, -, -, h3, -⟩ := mkAxis_facts h
  have h1 := h1 _ rfl
  have h2 := h2 _ rfl
  have hne : 0 < ax'.gridNode.length := by
    cases hq : ax'.gridNode with
    | nil => simp [hq] at h3
    | cons => simp
  unfold NodesOk at *
  rw [h1] at hne ⊢
  rw [h2]
  obtain ⟨start, stop, bw⟩ := s
  simp only at hb hs
  subst hb
  simp only [Slice.apply, Slice.forNodes, Bool.false_eq_true, if_false] at hne ⊢
  unfold sliceFwd at *
  simp only [take_drop_length] at *
  clear h h1 h2 h3
  have cp : ∀ (n : ℕ) (t : ℤ), 0 ≤ t → clampFwd n t = min t.toNat n :=
    fun n t ht => by unfold clampFwd; rw [if_neg (by omega)]
  have cn : ∀ (n : ℕ) (t : ℤ), t < 0 → clampFwd n t = (t + n).toNat :=
    fun n t ht => by unfold clampFwd; rw [if_pos ht]
  have hz : ∀ i, start = some i → ∃ k : ℕ, i = (k : ℤ) :=
    fun i hi => ⟨i.toNat, by have := hs i hi; omega⟩
  have hstop : ∀ t, stop = some t → (0 < t ∨ t < 0) ∨ t = 0 := fun t _ => by omega
  rcases start with _ | i
  · rcases stop with _ | t
    · simp at *; omega
    · rcases hstop t rfl with (h0 | h0) | h0
      · simp only [if_pos h0, cp _ t h0.le, cp _ (t + 1) (by omega)] at *
        omega
      · simp only [if_neg (show ¬ 0 < t by omega), cn _ t h0] at *
        omega
      · subst h0
        simp [clampFwd] at hne
  · obtain ⟨k, rfl⟩ := hz i rfl
    clear hs hz
    rcases k with _ | k
    · rcases stop with _ | t
      · simp [clampFwd] at *; omega
      · rcases hstop t rfl with (h0 | h0) | h0
        · simp only [if_pos h0, cp _ t h0.le, cp _ (t + 1) (by omega), Nat.cast_zero,
            cp _ 0 le_rfl] at *
          omega
        · simp only [if_neg (show ¬ 0 < t by omega), cn _ t h0, Nat.cast_zero, cp _ 0 le_rfl] at *
          omega
        · subst h0
          simp [clampFwd] at hne
    · rcases stop with _ | t
      · simp only [cp _ ((k + 1 : ℕ) : ℤ) (by omega)] at *
        omega
      · rcases hstop t rfl with (h0 | h0) | h0
        · simp only [if_pos h0, cp _ t h0.le, cp _ (t + 1) (by omega),
            cp _ ((k + 1 : ℕ) : ℤ) (by omega)] at *
          omega
        · simp only [if_neg (show ¬ 0 < t by omega), cn _ t h0,
            cp _ ((k + 1 : ℕ) : ℤ) (by omega)] at *
          omega
        · subst h0
          simp [clampFwd] at hne

theorem takeWhile_mono {α : Type} {p q : α → Bool} (h : ∀ a, p a = true → q a = true) (l : List α) :
    (l.takeWhile p).length ≤ (l.takeWhile q).length := by
  induction l with
  | nil => simp
  | cons a l ih =>
    by_cases hp : p a = true
    · simp [hp, h a hp, ih]
    · simp [List.takeWhile_cons, hp]

theorem search_rev {ax : Axis K} {a b : K} {s t : ℕ} (ha : ax.search a = .ok s)
    (hb : ax.search b = .ok t) (h : (decide (b < a) != ax.isReversed) = true) : t ≤ s := by
  unfold Axis.search at ha hb
  cases h2 : ax.isReversed with
  | true =>
    simp only [h2, if_true] at ha hb h
    split_ifs at ha hb
    simp only [Bool.bne_true, Bool.not_eq_true', decide_eq_false_iff_not, not_lt] at h
    have ha := Except.ok.inj ha
    have hb := Except.ok.inj hb
    have : searchRight ax.grid.reverse a ≤ searchRight ax.grid.reverse b :=
      takeWhile_mono (fun x hx => by simp at hx ⊢; exact le_trans hx h) _
    omega
  | false =>
    simp only [h2, Bool.false_eq_true, if_false] at ha hb h
    split_ifs at ha hb
    simp at h ha hb
    subst ha hb
    exact takeWhile_mono (fun x hx => by simp at hx ⊢; exact lt_trans hx h) _

theorem getSlice_bwd_refused {spl : Splines K} {ax ax' : Axis K} {s t : ℕ} (hts : t ≤ s)
    (h : ax.getSlice spl ⟨some s, some t, true⟩ = .ok ax') : False := by
  obtain ⟨-, -, h1, -, -, -, h3, -⟩ := mkAxis_facts h
  have h1 := h1 _ rfl
  have hne : 0 < ax'.gridNode.length := by
    cases hq : ax'.gridNode with
    | nil => simp [hq] at h3
    | cons => simp
  rw [h1] at hne
  simp only [Slice.apply, Slice.forNodes, Bool.false_eq_true, if_false, if_true] at hne
  unfold sliceFwd at hne
  simp only [take_drop_length] at hne
  rcases s with _ | s
  · have : t = 0 := by omega
    subst this
    simp [clampFwd] at hne
  · rcases t with _ | t
    · simp [clampFwd] at hne
    · have e : (if (0 : ℤ) < ((t + 1 : ℕ) : ℤ) then some (((t + 1 : ℕ) : ℤ) + -1) else some ((t + 1 : ℕ) : ℤ))
          = some (t : ℤ) := by
        rw [if_pos (by omega)]
        congr 1
        omega
      rw [e] at hne
      simp only [clampFwd] at hne
      split_ifs at hne <;> simp at hne <;> omega

/-! ### Operations -/

theorem binaryMetaRev_mem {a b r : List (Meta K)} (h : binaryMetaRev a b = .ok r) :
    ∀ x ∈ r, (∃ y ∈ a, x.1 = y.1) ∨ ∃ y ∈ b, x.1 = y.1 := by
  induction a generalizing b r with
  | nil =>
    simp [binaryMetaRev] at h
    subst h
    exact fun x hx => Or.inr ⟨x, hx, rfl⟩
  | cons p a ih =>
    cases b with
    | nil =>
      simp [binaryMetaRev] at h
      subst h
      exact fun x hx => Or.inl ⟨x, hx, rfl⟩
    | cons q b =>
      simp only [binaryMetaRev] at h
      have key : ∃ z s, binaryMetaRev a b = .ok s ∧ r = z :: s ∧ (z.1 = p.1 ∨ z.1 = q.1) := by
        split_ifs at h
        all_goals
          obtain ⟨z, hz, h⟩ := bind_ok h
          obtain ⟨s, hs, h⟩ := bind_ok h
          simp [pure, Except.pure] at h
          cases hz <;>
          first
          | exact ⟨_, s, hs, h.symm, Or.inl rfl⟩
          | exact ⟨_, s, hs, h.symm, Or.inr rfl⟩
      obtain ⟨z, s, hs, rfl, hz⟩ := key
      intro x hx
      rcases List.mem_cons.1 hx with rfl | hx
      · rcases hz with hz | hz
        · exact Or.inl ⟨p, by simp, hz⟩
        · exact Or.inr ⟨q, by simp, hz⟩
      · rcases ih hs x hx with ⟨y, hy, e⟩ | ⟨y, hy, e⟩
        · exact Or.inl ⟨y, List.mem_cons_of_mem _ hy, e⟩
        · exact Or.inr ⟨y, List.mem_cons_of_mem _ hy, e⟩

theorem metas_mem {f : Field K V} {x : Meta K} (h : x ∈ f.metas) : x.1 ∈ f.axes :=
  (List.of_mem_zip h).1

theorem binary_nodes {g : V → V → V} {f h r : Field K V} (hf : f.NodesOk) (hh : h.NodesOk)
    (hr : f.binary g h = .ok r) : r.NodesOk := by
  obtain ⟨m, hm, hr⟩ := bind_ok hr
  obtain ⟨a, _, hr⟩ := bind_ok hr
  obtain ⟨rfl, -⟩ := mkField_ok hr
  intro ax hax
  simp only [List.map_reverse, List.mem_reverse, List.mem_map] at hax
  obtain ⟨x, hx, rfl⟩ := hax
  rcases binaryMetaRev_mem hm x hx with ⟨y, hy, e⟩ | ⟨y, hy, e⟩
  · rw [e]; exact hf _ (metas_mem (List.mem_reverse.1 hy))
  · rw [e]; exact hh _ (metas_mem (List.mem_reverse.1 hy))

theorem binaryNumber_nodes {g : V → V → V} {f r : Field K V} {c : V} (hf : f.NodesOk)
    (hr : f.binaryNumber g c = .ok r) : r.NodesOk := by
  obtain ⟨rfl, -⟩ := mkField_ok hr
  exact hf

theorem binaryArray_nodes {g : V → V → V} {f r : Field K V} {b : Arr V} (hf : f.NodesOk)
    (hr : f.binaryArray g b = .ok r) : r.NodesOk := by
  obtain ⟨m, _, hr⟩ := bind_ok hr
  split_ifs at hr
  · cases hr
  · obtain ⟨rfl, -⟩ := mkField_ok hr
    exact hf

/-- Slices of integers as used by most users: step 1 and a start which is not negative. -/
def SafeKey : Key K → Prop
  | .slice s => s.backward = false ∧ ∀ i, s.start = some i → 0 ≤ i
  | _ => True

theorem getitem_nodes {spl : Splines K} {f r : Field K V} {key : List (Key K)} (hf : f.NodesOk)
    (hk : ∀ k ∈ key, SafeKey k) (hr : f.getitem spl key = .ok r) : r.NodesOk := by
  unfold Field.getitem at hr
  split_ifs at hr with hd
  · cases hr
  obtain ⟨keys, hk1, hr⟩ := bind_ok hr
  obtain ⟨picks, hp, hr⟩ := bind_ok hr
  obtain ⟨_, hc, hr⟩ := bind_ok hr
  simp [pure, Except.pure] at hr
  have hk1 := mapM_ok hk1
  have hp := mapM_ok hp
  subst hr
  intro ax' hax'
  simp only [List.mem_filterMap] at hax'
  obtain ⟨q, hq, hq1⟩ := hax'
  obtain ⟨i, hi, rfl⟩ := List.mem_iff_getElem.1 hq
  rw [List.forall₂_iff_get] at hk1 hp
  have hi0 := hi
  rw [← hp.1, List.length_zip] at hi0
  have h1 := hp.2 i (by rw [hp.1]; exact hi) hi
  simp only [List.get_eq_getElem, List.getElem_zip] at h1
  have hi1 : i < keys.length := by omega
  have h2 := hk1.2 i (by rw [hk1.1]; exact hi1) hi1
  simp only [List.get_eq_getElem, List.getElem_zip] at h2
  have hlen := hk1.1
  rw [List.length_zip] at hlen
  have hi2 : i < key.length := by omega
  have hax := hf f.axes[i] (List.getElem_mem _)
  have hsafe := hk key[i] (List.getElem_mem _)
  generalize f.axes[i] = ax at *
  generalize key[i] = k0 at *
  generalize keys[i] = k1 at *
  generalize picks[i] = pk at *
  cases k1 with
  | int j =>
    simp only [pickAxis] at h1
    split at h1
    · simp at h1; subst h1; simp at hq1
    · simp at h1
  | slice s =>
    obtain ⟨a, ha, h1⟩ := bind_ok h1
    simp [pure, Except.pure] at h1
    subst h1
    simp at hq1
    subst hq1
    cases k0 with
    | int j => simp [normKey] at h2
    | coord v =>
      simp only [normKey] at h2
      split_ifs at h2
      obtain ⟨_, _, h2⟩ := bind_ok h2
      cases h2
    | slice s' =>
      simp [normKey] at h2
      subst h2
      exact getSlice_fwd_nodes hax hsafe.1 hsafe.2 ha
    | range u v =>
      obtain ⟨s', hs', h2⟩ := bind_ok h2
      cases h2
      unfold Axis.extentToSlice at hs'
      simp only at hs'
      split_ifs at hs'
      · cases hs'
      · obtain ⟨x, hx, hs'⟩ := bind_ok hs'
        obtain ⟨y, hy, hs'⟩ := bind_ok hs'
        cases hs'
        cases hb : (decide (v.getD ax.extent.2 < u.getD ax.extent.1) != ax.isReversed) with
        | false =>
          rw [hb] at ha
          exact getSlice_fwd_nodes hax rfl (fun i hi => by simp at hi; omega) ha
        | true =>
          rw [hb] at ha
          exact (getSlice_bwd_refused (search_rev hx hy hb) ha).elim

theorem squeeze_nodes {spl : Splines K} {f r : Field K V} (hf : f.NodesOk)
    (hr : f.squeeze spl = .ok r) : r.NodesOk := by
  obtain ⟨x, hx, hr⟩ := bind_ok hr
  split_ifs at hr
  · cases hr
  · cases hr
    refine getitem_nodes hf ?_ hx
    intro k hk
    simp only [List.mem_map] at hk
    obtain ⟨ax, -, rfl⟩ := hk
    split_ifs
    · trivial
    · exact ⟨rfl, by simp⟩

theorem atleastNd_nodes {spl : Splines K} {f r : Field K V} {n : ℤ} (hf : f.NodesOk)
    (hr : f.atleastNd spl n = .ok r) : r.NodesOk := by
  unfold Field.atleastNd at hr
  split_ifs at hr with hd
  · simp at hr; subst hr; exact hf
  · obtain ⟨ax, hax, hr⟩ := bind_ok hr
    cases hr
    intro a ha
    simp only [List.mem_append, List.mem_replicate] at ha
    rcases ha with ha | ⟨-, rfl⟩
    · exact hf a ha
    · have h1 := mkAxis_node_len hax rfl
      have h2 := (mkAxis_facts hax).2.2.1 _ rfl
      unfold Fields.NodesOk
      unfold Axis.len at h1
      rw [h1, h2]
      rfl

theorem transpose_nodes {f r : Field K V} {axes : Option (List ℤ)} (hf : f.Ok) (hn : f.NodesOk)
    (hr : f.transpose axes = .ok r) : r.NodesOk := by
  obtain ⟨p, -, -, -, -, h4, -⟩ := transpose_eq hf hr
  intro ax hax
  obtain ⟨i, hi, rfl⟩ := List.mem_iff_getElem.1 hax
  have := (List.forall₂_iff_get.1 h4).2 i (by rw [h4.length_eq]; exact hi) hi
  exact hn _ (List.mem_of_getElem? this)

theorem swapaxes_nodes {f r : Field K V} {a b : ℤ} (hf : f.Ok) (hn : f.NodesOk)
    (hr : f.swapaxes a b = .ok r) : r.NodesOk := by
  obtain ⟨l, _, hr⟩ := bind_ok hr
  obtain ⟨l', _, hr⟩ := bind_ok hr
  exact transpose_nodes hf hn hr

theorem set_nodes {axes : List (Axis K)} {k : ℕ} {ax : Axis K}
    (h : ∀ a ∈ axes, Fields.NodesOk a) (hax : Fields.NodesOk ax) :
    ∀ a ∈ axes.set k ax, Fields.NodesOk a := by
  intro a ha
  rcases List.mem_or_eq_of_mem_set ha with ha | rfl
  · exact h a ha
  · exact hax

theorem flip_nodes {spl : Splines K} {f r : Field K V} {axis : ℤ} (hn : f.NodesOk)
    (hr : f.flip spl axis = .ok r) : r.NodesOk := by
  obtain ⟨k, k', ax, ax', h1, h2, h3, h4, rfl⟩ := flip_eq hr
  refine set_nodes hn ?_
  have := hn ax (List.mem_of_getElem? h3)
  unfold Fields.NodesOk at *
  rw [(reversed_len h4).1, (reversed_len h4).2]
  simpa using this

theorem rot90_nodes {spl : Splines K} {f r : Field K V} {k a b : ℤ} (hf : f.Ok) (hn : f.NodesOk)
    (hr : f.rot90 spl k a b = .ok r) : r.NodesOk := by
  unfold Field.rot90 at hr
  simp only [bind, Except.bind, pure, Except.pure, throw, throwThe, MonadExceptOf.throw] at hr
  split_ifs at hr
  · simp at hr; subst hr; exact hn
  · split at hr
    · simp at hr
    · rename_i x hx
      exact flip_nodes (flip_nodes hn hx) hr
  · split at hr
    · simp at hr
    split at hr
    · simp at hr
    split at hr
    · simp at hr
    split at hr
    · simp at hr
    split at hr
    · simp at hr
    · rename_i x hx
      exact transpose_nodes (flip_Ok hf hx) (flip_nodes hn hx) hr
  · split at hr
    · simp at hr
    split at hr
    · simp at hr
    split at hr
    · simp at hr
    split at hr
    · simp at hr
    split at hr
    · simp at hr
    · rename_i x hx
      exact flip_nodes (transpose_nodes hf hn hx) hr

theorem shrinkAxes_nodes {spl : Splines K} {axes axes' : List (Axis K)} {is : List ℤ}
    (hn : ∀ a ∈ axes, Fields.NodesOk a)
    (h : shrinkAxes spl axes is = .ok axes') : ∀ a ∈ axes', Fields.NodesOk a := by
  induction is generalizing axes with
  | nil => simp [shrinkAxes] at h; rw [← h]; exact hn
  | cons i is ih =>
    obtain ⟨ax, _, h⟩ := bind_ok h
    obtain ⟨ax', h1, h⟩ := bind_ok h
    obtain ⟨a, ha, h⟩ := bind_ok h
    refine ih ?_ h
    obtain ⟨k, -, rfl⟩ := pySet_eq ha
    exact set_nodes hn (mkAxis_extent_nodes h1).1

theorem delAll_mem {α : Type} {l l' : List α} {is : List ℤ} (h : delAll l is = .ok l') :
    ∀ a ∈ l', a ∈ l := by
  induction is generalizing l with
  | nil => simp [delAll] at h; subst h; simp
  | cons i is ih =>
    obtain ⟨x, hx, h⟩ := bind_ok h
    unfold pyDel at hx
    split at hx
    · cases hx
      exact fun a ha => List.mem_of_mem_eraseIdx (ih h a ha)
    · cases hx

theorem reduce_nodes {spl : Splines K} {red : List V → V} {f r : Field K V}
    {axis : Option (List ℤ)} {kd : Bool} (hn : f.NodesOk)
    (hr : f.reduce spl red axis kd = .ok r) : r.NodesOk := by
  unfold Field.reduce at hr
  simp only at hr
  split_ifs at hr
  · obtain ⟨axes, h1, hr⟩ := bind_ok hr
    obtain ⟨sel, h2, hr⟩ := bind_ok hr
    obtain ⟨rfl, -⟩ := mkField_ok hr
    exact shrinkAxes_nodes hn h1
  · obtain ⟨axes, h1, hr⟩ := bind_ok hr
    obtain ⟨tao, h2, hr⟩ := bind_ok hr
    obtain ⟨ats, h3, hr⟩ := bind_ok hr
    obtain ⟨sel, h4, hr⟩ := bind_ok hr
    obtain ⟨rfl, -⟩ := mkField_ok hr
    exact fun a ha => hn a (delAll_mem h1 a ha)

section
variable [AddCommMonoid V] [Module K V]

theorem mulBoxes_nodes {f o r : Field K V} {i : ℤ} (hn : f.NodesOk)
    (hr : f.mulBoxes o i = .ok r) : r.NodesOk := by
  obtain ⟨ax, _, hr⟩ := bind_ok hr
  split at hr
  · cases hr
  · split_ifs at hr
    · cases hr
    · obtain ⟨rfl, -⟩ := mkField_ok hr
      exact hn

theorem mulAllBoxes_nodes {f o r : Field K V} {is : List ℤ} (hn : f.NodesOk)
    (hr : mulAllBoxes o f is = .ok r) : r.NodesOk := by
  induction is generalizing f with
  | nil => simp [mulAllBoxes] at hr; subst hr; exact hn
  | cons i is ih =>
    obtain ⟨x, hx, hr⟩ := bind_ok hr
    exact ih (mulBoxes_nodes hn hx) hr

theorem integrateConstant_nodes {spl : Splines K} {f r : Field K V} {axes : List ℤ}
    (hn : f.NodesOk) (hr : f.integrateConstant spl axes = .ok r) : r.NodesOk := by
  obtain ⟨x, hx, hr⟩ := bind_ok hr
  exact reduce_nodes (mulAllBoxes_nodes hn hx) hr

theorem fastLoop_nodes {f r : Field K V} {is : List ℤ} (hf : f.Ok) (hn : f.NodesOk)
    (hr : fastLoop f is = .ok r) : r.NodesOk := by
  induction hl : is.length generalizing f is with
  | zero =>
    rw [List.length_eq_zero_iff] at hl
    subst hl
    simp [fastLoop] at hr
    subst hr
    exact hn
  | succ n ih =>
    cases is with
    | nil => simp at hl
    | cons i is =>
      rw [fastLoop] at hr
      obtain ⟨x, hx, hr⟩ := bind_ok hr
      refine ih (integrateStep_Ok hf hx) ?_ hr (by simpa using hl)
      obtain ⟨k, ax, -, -, -, rfl⟩ := integrateStep_eq hf hx
      exact fun a ha => hn a (List.mem_of_mem_eraseIdx ha)

theorem integrateFast_nodes {f r : Field K V} {axes : List ℤ} (hf : f.Ok) (hn : f.NodesOk)
    (hr : f.integrateFast axes = .ok r) : r.NodesOk := by
  obtain ⟨x, hx, hr⟩ := bind_ok hr
  exact fastLoop_nodes hf hn hr

theorem halfAxis_nodes {spl : Splines K} {ax ax' : Axis K} (hn : Fields.NodesOk ax)
    (h : ax.halfResolution spl = .ok ax') : Fields.NodesOk ax' ∧ ax'.len = ax.len / 2 := by
  unfold Axis.halfResolution at h
  obtain ⟨-, -, h1, h2, -⟩ := mkAxis_facts h
  have h1 := h1 _ rfl
  have h2 := h2 _ rfl
  unfold Fields.NodesOk Axis.len at *
  rw [h1, h2]
  simp [evens_length]
  omega

theorem halfResolution_nodes {spl : Splines K} {f r : Field K V} {axis : ℕ} (hn : f.NodesOk)
    (hr : f.halfResolution spl axis = .ok r) : r.NodesOk := by
  obtain ⟨n, ax, ax', h1, h2, h3, h4, h5, rfl⟩ := halfResolution_eq hr
  exact set_nodes hn (halfAxis_nodes (hn ax (List.mem_of_getElem? h3)) h4).1

theorem halveLoop_nodes {spl : Splines K} {m : ℤ} {i fuel : ℕ} {f r : Field K V} (hf : f.NodesOk)
    (hr : halveLoop spl m i fuel f = some (.ok r)) : r.NodesOk := by
  induction fuel generalizing f with
  | zero => simp [halveLoop] at hr
  | succ fuel ih =>
    simp only [halveLoop] at hr
    split at hr
    · simp at hr
    · split_ifs at hr
      · split at hr
        · rename_i x hx
          exact ih (halfResolution_nodes hf hx) hr
        · simp at hr
      · simp at hr
        subst hr
        exact hf

theorem autoreduce_nodes {spl : Splines K} {m : ℤ} {fuel : ℕ} {f r : Field K V}
    (hf : f.NodesOk) (hr : f.autoreduce spl m fuel = some (.ok r)) : r.NodesOk := by
  have key : ∀ (is : List ℕ) (f : Field K V), f.NodesOk →
      reduceLoop spl m fuel is f = some (.ok r) → r.NodesOk := by
    intro is
    induction is with
    | nil => intro f hf hr; simp [reduceLoop] at hr; subst hr; exact hf
    | cons i is ih =>
      intro f hf hr
      simp only [reduceLoop] at hr
      split at hr
      · rename_i x hx
        exact ih _ (halveLoop_nodes hf hx) hr
      · rename_i h
        exact absurd hr (h r)
  exact key _ _ hf hr

end

theorem derivativeStagger_nodes {V : Type} [AddCommGroup V] [Module K V] {spl : Splines K}
    (hspl : ∀ g, (spl.inner g).length + 1 = g.length) {f r : Field K V} {axis : ℤ}
    (hn : f.NodesOk) (hr : f.derivativeStagger spl axis = .ok r) : r.NodesOk := by
  obtain ⟨ax, _, hr⟩ := bind_ok hr
  split_ifs at hr
  · cases hr
  · obtain ⟨ax', h1, hr⟩ := bind_ok hr
    obtain ⟨axes, ha, hr⟩ := bind_ok hr
    split at hr
    · cases hr
    · obtain ⟨_, _, hr⟩ := bind_ok hr
      obtain ⟨rfl, -⟩ := mkField_ok hr
      obtain ⟨k, -, rfl⟩ := pySet_eq ha
      exact set_nodes hn (mkAxis_grid_nodes hspl h1)

theorem replaceData_nodes {W : Type} {f : Field K V} {m : Arr W} {r : Field K W} (hn : f.NodesOk)
    (hr : f.replaceData m = .ok r) : r.NodesOk := by
  unfold Field.replaceData at hr
  split_ifs at hr with h
  cases hr
  exact hn

section
variable [FloorRing K]

theorem padAxis_ok {spl : Splines K} {ax : Axis K} {o : Option K} {p : PadWidth K × PadWidth K}
    {r : Axis K × Option K × (ℤ × ℤ)} (hn : Fields.NodesOk ax) (h : padAxis spl ax o p = .ok r)
    (h0 : ¬ (r.2.2.1 < 0 ∨ r.2.2.2 < 0)) :
    Fields.NodesOk r.1 ∧ r.1.len = r.2.2.1.toNat + ax.len + r.2.2.2.toNat := by
  obtain ⟨dx, _, h⟩ := bind_ok h
  simp only at h
  split_ifs at h with hz
  · cases h
    simp only at h0
    exact ⟨hn, by simp only; omega⟩
  · obtain ⟨ax', h1, h⟩ := bind_ok h
    cases h
    obtain ⟨h2, h3, -⟩ := mkAxis_extent_nodes h1
    simp only at h0
    refine ⟨h2, ?_⟩
    unfold Fields.NodesOk at hn
    unfold Axis.len at *
    simp only
    omega

theorem pad_eq {spl : Splines K} {f r : Field K V} {w : List (PadWidth K × PadWidth K)} {c : V}
    (hf : f.Ok) (hr : f.pad spl w c = .ok r) :
    ∃ l, List.Forall₂ (fun q x => padAxis spl q.1.1 q.1.2 q.2 = .ok x) ((f.axes.zip f.tao).zip w) l ∧
      (∀ x ∈ l, ¬ (x.2.2.1 < 0 ∨ x.2.2.2 < 0)) ∧ l.length = f.shape.length ∧
      w.length = f.shape.length ∧
      r = { f with
        matrix := f.matrix.pad (l.map fun q => (q.2.2.1.toNat, q.2.2.2.toNat)) c
        axes := l.map (·.1), tao := l.map (·.2.1) } := by
  unfold Field.pad at hr
  by_cases hz : f.axes = []
  · rw [if_pos hz] at hr
    cases hr
  rw [if_neg hz] at hr
  by_cases hd : (w.length : ℤ) ≠ f.dims
  · simp only [if_pos hd] at hr
    cases hr
  simp only [if_neg hd] at hr
  obtain ⟨l, hl, hr⟩ := bind_ok hr
  split_ifs at hr with hneg
  · cases hr
  · cases hr
    have hl := mapM_ok hl
    have h1 := hl.length_eq
    have h2 := dims_eq (not_not.1 hd)
    have h3 := ok_axes_length hf
    have h4 := hf.origins
    simp only [List.length_zip] at h1
    refine ⟨l, hl, ?_, by omega, h2, rfl⟩
    intro x hx hc
    exact hneg (List.any_eq_true.2 ⟨x, hx, by simpa using hc⟩)

theorem pad_Ok_nodes {spl : Splines K} {f r : Field K V} {w : List (PadWidth K × PadWidth K)} {c : V}
    (hf : f.Ok) (hn : f.NodesOk) (hr : f.pad spl w c = .ok r) : r.Ok ∧ r.NodesOk := by
  obtain ⟨l, h1, h2, h3, h4, rfl⟩ := pad_eq hf hr
  have hax := ok_axes_length hf
  have key : ∀ i (hi : i < l.length), ∃ ax, f.axes[i]? = some ax ∧
      Fields.NodesOk l[i].1 ∧ l[i].1.len = l[i].2.2.1.toNat + ax.len + l[i].2.2.2.toNat := by
    intro i hi
    have h5 := (List.forall₂_iff_get.1 h1).2 i (by rw [h1.length_eq]; exact hi) hi
    simp only [List.get_eq_getElem, List.getElem_zip] at h5
    have hi2 : i < f.axes.length := by omega
    exact ⟨f.axes[i], by simp [hi2],
      padAxis_ok (hn _ (List.getElem_mem _)) h5 (h2 _ (List.getElem_mem _))⟩
  refine ⟨⟨?_, ?_, ?_⟩, ?_⟩
  · show (l.map (·.1)).map Axis.len =
      List.zipWith (fun n p => p.1 + n + p.2) f.shape (l.map fun q => (q.2.2.1.toNat, q.2.2.2.toNat))
    apply List.ext_getElem
    · simp [h3]
    · intro i hi1 hi2
      simp only [List.length_map] at hi1
      obtain ⟨ax, ha, -, hb⟩ := key i hi1
      simp only [List.getElem_map, List.getElem_zipWith]
      rw [hb]
      have := congrArg (fun q => q[i]?) hf.lengths
      simp only [List.getElem?_map, ha] at this
      have hi3 : i < f.shape.length := by omega
      rw [List.getElem?_eq_getElem hi3] at this
      simp at this
      rw [this]
  · show f.ats.length = (List.zipWith _ f.shape _).length
    simp [hf.states, h3]
  · show (l.map (·.2.1)).length = (List.zipWith _ f.shape _).length
    simp [h3]
  · intro a ha
    simp only [List.mem_map] at ha
    obtain ⟨q, hq, rfl⟩ := ha
    obtain ⟨i, hi, rfl⟩ := List.mem_iff_getElem.1 hq
    exact (key i hi).choose_spec.2.1

end

end Postpic.Fields
