import Mathlib.Data.Fintype.EquivFin
import Mathlib.Data.List.OfFn
import Mathlib.Data.List.GetD
import Verif.Spec.FieldMoves
import Verif.Lemmas.Field

/-!
# Lemmas about transposing, flipping and rotating fields
-/

set_option autoImplicit false
set_option linter.unusedSectionVars false

namespace Postpic.Fields

open Postpic Postpic.Axes Postpic.Spec

theorem perm_surj {n : ℕ} {σ : ℕ → ℕ} (h : IsPerm n σ) {e : ℕ} (he : e < n) :
    ∃ d < n, σ d = e := by
  let g : Fin n → Fin n := fun d => ⟨σ d, h.1 d d.2⟩
  have hg : Function.Injective g := by
    intro a b hab
    have : σ a = σ b := congrArg Fin.val hab
    exact Fin.ext (h.2 a a.2 b b.2 this)
  obtain ⟨d, hd⟩ := (Finite.surjective_of_injective hg) ⟨e, he⟩
  exact ⟨d, d.2, congrArg Fin.val hd⟩

theorem perm_exists_index {n : ℕ} {σ : ℕ → ℕ} (h : IsPerm n σ) (v : ℕ → ℕ) :
    ∃ j : List ℕ, j.length = n ∧ ∀ d < n, j[σ d]? = some (v d) := by
  classical
  let inv : Fin n → ℕ := fun e => (perm_surj h e.2).choose
  have hinv : ∀ e : Fin n, inv e < n ∧ σ (inv e) = e := fun e => (perm_surj h e.2).choose_spec
  refine ⟨List.ofFn fun e => v (inv e), by simp, ?_⟩
  intro d hd
  have h1 := h.1 d hd
  rw [List.getElem?_ofFn]
  rw [dif_pos h1]
  have h2 := hinv ⟨σ d, h1⟩
  rw [h.2 _ h2.1 _ hd h2.2]

variable {K V : Type}

theorem reverseAxis_reverseAxis (ax : Axis K) : reverseAxis (reverseAxis ax) = ax := by
  simp [reverseAxis]

theorem moved_comp {n : ℕ} {σ τ : ℕ → ℕ} {s t : ℕ → Bool} {m m' m'' : Arr V}
    {axes axes' axes'' : List (Axis K)} (hτ : IsPerm n τ)
    (h1 : Moved n σ s m m' axes axes') (h2 : Moved n τ t m' m'' axes' axes'') :
    Moved n (fun d => σ (τ d)) (fun d => t d ^^ s (τ d)) m m'' axes axes'' := by
  refine ⟨h1.dims, h2.dims', h2.naxes', ?_, ?_, ?_⟩
  · intro d hd
    rw [h2.shape d hd, h1.shape _ (hτ.1 d hd)]
  · intro d hd
    rw [h2.axis d hd, h1.axis _ (hτ.1 d hd), Option.map_map]
    congr 1
    funext ax
    cases t d <;> cases s (τ d) <;> simp [reverseAxis_reverseAxis]
  · intro idx j hidx hj hij
    have hidl : idx.length = n := by rw [hidx.1, h2.dims']
    let w : ℕ → ℕ := fun d =>
      if t d then (m'.shape.getD (τ d) 0) - 1 - idx.getD d 0 else idx.getD d 0
    obtain ⟨k, hk1, hk2⟩ := perm_exists_index hτ w
    have hgm : ∀ d < n, idx[d]? = some (idx.getD d 0) := by
      intro d hd
      rw [List.getD_eq_getElem?_getD, List.getElem?_eq_getElem (by omega)]
      rfl
    have hgs : ∀ e < n, m'.shape[e]? = some (m'.shape.getD e 0) := by
      intro d hd
      rw [List.getD_eq_getElem?_getD, List.getElem?_eq_getElem (by rw [h1.dims']; exact hd)]
      rfl
    have hlt : ∀ d < n, idx.getD d 0 < m'.shape.getD (τ d) 0 := by
      intro d hd
      apply hidx.2 d _ _ (hgm d hd)
      rw [h2.shape d hd]
      exact hgs _ (hτ.1 d hd)
    rw [h2.data idx k hidx hk1, h1.data k j ?_ hj]
    · intro e he i q hi hq
      obtain ⟨d, hd, rfl⟩ := perm_surj hτ he
      rw [hk2 d hd] at hi
      simp only [Option.some.injEq] at hi
      have h3 : q = m'.shape.getD (τ d) 0 := by
        have h4 := h1.shape _ (hτ.1 d hd)
        rw [hq, hgs _ (hτ.1 d hd)] at h4
        simp only [Option.some.injEq] at h4
        exact h4.symm
      have h5 := hij d hd _ q (hgm d hd) hq
      have h6 := hlt d hd
      simp only [h5, ← hi, w, Option.some.injEq, ← h3]
      rw [← h3] at h6
      generalize idx.getD d 0 = x at h6 ⊢
      cases t d <;> cases s (τ d) <;> simp
      omega
    · refine ⟨by rw [hk1, h1.dims'], ?_⟩
      intro e i q hi hq
      have he : e < n := by
        have := (List.getElem?_eq_some_iff.1 hi).1
        omega
      obtain ⟨d, hd, rfl⟩ := perm_surj hτ he
      rw [hk2 d hd] at hi
      rw [hgs _ (hτ.1 d hd)] at hq
      simp only [Option.some.injEq] at hi hq
      have h6 := hlt d hd
      simp only [w] at hi
      split_ifs at hi <;> omega
    · intro d hd i q hi hq
      rw [hk2 d hd]
      rw [hgm d hd] at hi
      rw [hgs _ (hτ.1 d hd)] at hq
      simp only [Option.some.injEq] at hi hq
      simp only [w, hi, hq]

/-- The result is determined. -/
theorem moved_unique {n : ℕ} {σ τ : ℕ → ℕ} {s t : ℕ → Bool} {m m' m'' : Arr V}
    {axes axes' axes'' : List (Axis K)} (hσ : IsPerm n σ)
    (h1 : Moved n σ s m m' axes axes') (h2 : Moved n τ t m m'' axes axes'')
    (hst : ∀ d < n, σ d = τ d) (hs : ∀ d < n, s d = t d) :
    m'.Eqv m'' ∧ axes' = axes'' := by
  have hshape : m'.shape = m''.shape := by
    apply List.ext_getElem?
    intro d
    by_cases hd : d < n
    · rw [h1.shape d hd, h2.shape d hd, hst d hd]
    · rw [List.getElem?_eq_none (by rw [h1.dims']; omega),
        List.getElem?_eq_none (by rw [h2.dims']; omega)]
  refine ⟨⟨hshape, ?_⟩, ?_⟩
  · intro idx hidx
    have hidl : idx.length = n := by rw [hidx.1, h1.dims']
    obtain ⟨j, hj1, hj2⟩ := perm_exists_index hσ fun d =>
      if s d then m.shape.getD (σ d) 0 - 1 - idx.getD d 0 else idx.getD d 0
    rw [h1.data idx j hidx hj1, h2.data idx j (by rw [← hshape]; exact hidx) hj1]
    · intro d hd i k hi hk
      rw [← hst d hd] at hk ⊢
      rw [hj2 d hd, ← hs d hd]
      simp only [List.getD_eq_getElem?_getD, hi, hk, Option.getD_some]
    · intro d hd i k hi hk
      rw [hj2 d hd]
      simp only [List.getD_eq_getElem?_getD, hi, hk, Option.getD_some]
  · apply List.ext_getElem?
    intro d
    by_cases hd : d < n
    · rw [h1.axis d hd, h2.axis d hd, hst d hd, hs d hd]
    · rw [List.getElem?_eq_none (by rw [h1.naxes']; omega),
        List.getElem?_eq_none (by rw [h2.naxes']; omega)]

theorem moved_refl {m : Arr V} {axes : List (Axis K)} (h : axes.length = m.shape.length) :
    Moved m.shape.length id (fun _ => false) m m axes axes := by
  refine ⟨rfl, rfl, h, fun _ _ => rfl, fun d _ => by simp, ?_⟩
  intro idx j hidx hj hij
  congr 1
  apply List.ext_getElem
  · rw [hj, hidx.1]
  · intro d hd1 hd2
    have hd : d < m.shape.length := by omega
    have := hij d hd _ _ (List.getElem?_eq_getElem hd1) (List.getElem?_eq_getElem hd)
    simp at this
    exact (List.getElem?_eq_some_iff.1 this).2.symm

theorem perm_id (n : ℕ) : IsPerm n id := ⟨fun _ h => h, fun _ _ _ _ h => h⟩

theorem perm_of_nodup {n : ℕ} {p : List ℕ} (h1 : p.Nodup) (h2 : p.length = n)
    (h3 : ∀ k ∈ p, k < n) : IsPerm n fun d => p.getD d 0 := by
  constructor
  · intro d hd
    simp only
    rw [List.getD_eq_getElem _ _ (h2 ▸ hd)]
    exact h3 _ (List.getElem_mem _)
  · intro d hd e he h
    simp only at h
    rw [List.getD_eq_getElem _ _ (h2 ▸ hd), List.getD_eq_getElem _ _ (h2 ▸ he)] at h
    exact (List.Nodup.getElem_inj_iff h1).1 h

variable [_root_.Field K] [LinearOrder K] [IsStrictOrderedRing K]

theorem moved_transpose {m : Arr V} {p : List ℕ} {axes axes' : List (Axis K)} (h1 : p.Nodup)
    (h2 : p.length = m.shape.length) (h3 : ∀ k ∈ p, k < m.shape.length)
    (h4 : List.Forall₂ (fun (k : ℕ) (ax : Axis K) => axes[k]? = some ax) p axes') :
    Moved m.shape.length (fun d => p.getD d 0) (fun _ => false) m (m.transpose p) axes axes' := by
  have hp := perm_of_nodup h1 h2 h3
  refine ⟨rfl, by simp [Arr.transpose, h2], by rw [← h4.length_eq, h2], ?_, ?_, ?_⟩
  · intro d hd
    simp only [Arr.transpose]
    rw [List.getElem?_map, List.getElem?_eq_getElem (by omega), List.getD_eq_getElem _ _ (by omega)]
    have := h3 p[d] (List.getElem_mem _)
    simp [this]
  · intro d hd
    have := (List.forall₂_iff_get.1 h4).2 d (by omega) (by rw [← h4.length_eq]; omega)
    simp only [List.get_eq_getElem] at this
    rw [List.getD_eq_getElem _ _ (by omega), this]
    simp
  · intro idx j hidx hj hij
    simp only [Arr.transpose]
    congr 1
    have hidl : idx.length = m.shape.length := by rw [hidx.1]; simp [Arr.transpose, h2]
    apply List.ext_getElem
    · simp [hj]
    · intro e he1 he2
      simp only [List.length_map, List.length_range] at he1
      obtain ⟨d, hd, hde⟩ := perm_surj hp he1
      have hd' : d < p.length := by omega
      rw [List.getD_eq_getElem _ _ hd'] at hde
      have h5 := hij d hd idx[d] m.shape[e] (List.getElem?_eq_getElem (by omega)) (by
        simp [List.getD_eq_getElem?_getD, hde, hd'])
      simp only [List.getElem_map, List.getElem_range]
      have h6 : p.idxOf e = d := by
        rw [← hde]
        exact List.Nodup.idxOf_getElem h1 d hd'
      rw [h6, List.getD_eq_getElem _ _ (by omega)]
      have h7 : j[e]? = some idx[d] := by
        simpa [List.getD_eq_getElem?_getD, hde, hd'] using h5
      exact (List.getElem?_eq_some_iff.1 h7).2.symm

theorem moved_flip {m : Arr V} {k : ℕ} {axes : List (Axis K)} {ax : Axis K}
    (h : axes.length = m.shape.length) (hk : axes[k]? = some ax) :
    Moved m.shape.length id (fun d => decide (d = k)) m (m.flip k) axes
      (axes.set k (reverseAxis ax)) := by
  have hkl := (List.getElem?_eq_some_iff.1 hk).1
  refine ⟨rfl, rfl, by simp [h], fun _ _ => rfl, ?_, ?_⟩
  · intro d hd
    rw [List.getElem?_set]
    by_cases hdk : k = d
    · subst hdk
      simp only [if_true, hkl, id, hk, Option.map_some, decide_true]
    · rw [if_neg hdk]
      have : decide (d = k) = false := by simp; omega
      simp [this]
  · intro idx j hidx hj hij
    simp only [Arr.flip]
    congr 1
    have hidl : idx.length = m.shape.length := hidx.1
    apply List.ext_getElem
    · simp [hj, hidl]
    · intro d hd1 hd2
      have hd : d < m.shape.length := by omega
      have h5 := hij d hd idx[d] m.shape[d] (List.getElem?_eq_getElem (by omega))
        (List.getElem?_eq_getElem hd)
      have h7 := (List.getElem?_eq_some_iff.1 h5).2
      simp only [id] at h7
      rw [h7, List.getElem_modify]
      by_cases hdk : k = d
      · subst hdk
        simp [List.getD_eq_getElem?_getD, hd]
      · rw [if_neg hdk]
        have : decide (d = k) = false := by simp; omega
        simp [this]

/-! ### Fields -/

theorem reversed_eq (spl : Splines K) {ax : Axis K} (h : ax.Valid) :
    ax.reversed spl = .ok (reverseAxis ax) := by
  obtain ⟨e, h1, h2, h3⟩ := mkAxis_wf spl ax.name ax.unit (wf_reverse h.wf)
  unfold Axis.reversed
  rw [h1]
  rw [List.head?_reverse, h.last] at h2
  rw [List.getLast?_reverse, h.first] at h3
  simp at h2 h3
  simp [reverseAxis, h2, h3]

theorem reverse_valid {ax : Axis K} (h : ax.Valid) : (reverseAxis ax).Valid :=
  ⟨wf_reverse h.wf, by simp [reverseAxis, h.last], by simp [reverseAxis, h.first]⟩

theorem moved_sound {n : ℕ} {σ : ℕ → ℕ} {s : ℕ → Bool} {f r : Field K V} (hf : f.Sound)
    (h : Moved n σ s f.matrix r.matrix f.axes r.axes) (hr : f.SameRest r) : r.Sound := by
  have hax := ok_axes_length hf.ok
  have hn : f.shape.length = n := h.dims
  have hn' : r.shape.length = n := h.dims'
  refine ⟨⟨?_, ?_, ?_⟩, ?_, ?_⟩
  · apply List.ext_getElem?
    intro d
    by_cases hd : d < n
    · have h1 := h.axis d hd
      have h2 := h.shape d hd
      have h3 : f.axes[σ d]?.map Axis.len = f.shape[σ d]? := by
        rw [← List.getElem?_map, hf.ok.lengths]
      rw [List.getElem?_map, h1]
      show _ = r.matrix.shape[d]?
      rw [h2]
      show _ = f.shape[σ d]?
      rw [← h3, Option.map_map]
      congr 1
      funext ax
      cases s d <;> simp [reverseAxis, Axis.len]
    · rw [List.getElem?_eq_none (by simp [h.naxes']; omega),
        List.getElem?_eq_none (by omega)]
  · rw [hr.2.2.1, hf.ok.states]; omega
  · rw [hr.2.2.2, hf.ok.origins]; omega
  · intro ax hax
    obtain ⟨d, hd, rfl⟩ := List.mem_iff_getElem.1 hax
    have hdn : d < n := by rw [← h.naxes']; exact hd
    have h1 := h.axis d hdn
    rw [List.getElem?_eq_getElem hd] at h1
    cases h2 : f.axes[σ d]? with
    | none => rw [h2] at h1; simp at h1
    | some a =>
      rw [h2] at h1
      simp at h1
      rw [h1]
      have := hf.valid a (List.mem_of_getElem? h2)
      split_ifs
      · exact reverse_valid this
      · exact this
  · intro h0
    obtain ⟨d, hd, h0⟩ := List.mem_iff_getElem.1 h0
    have h1 := h.shape d (by omega)
    have h2 : r.matrix.shape[d]? = some 0 := List.getElem?_eq_some_iff.2 ⟨hd, h0⟩
    rw [h2] at h1
    exact hf.nonempty (List.mem_of_getElem? h1.symm)

theorem dims_sound {f : Field K V} (h : f.Sound) : f.dims = f.shape.length := by
  unfold Field.dims
  rw [if_neg h.nonempty]

theorem pyGet_of {α : Type} {l : List α} {i : ℤ} {k : ℕ} {v : α} (h : pyIdx l.length i = some k)
    (hv : l[k]? = some v) : pyGet l i = .ok v := by
  unfold pyGet
  rw [h]
  simp only [hv]

theorem pySet_of {α : Type} {l : List α} {i : ℤ} {k : ℕ} (v : α) (h : pyIdx l.length i = some k) :
    pySet l i v = .ok (l.set k v) := by
  unfold pySet
  rw [h]

theorem flip_sound (spl : Splines K) {f : Field K V} (hf : f.Sound) {axis : ℤ} {k : ℕ}
    (hk : pyIdx f.shape.length axis = some k) :
    ∃ r, f.flip spl axis = .ok r ∧ f.SameRest r ∧ r.Sound ∧
      Moved f.shape.length id (fun d => decide (d = k)) f.matrix r.matrix f.axes r.axes := by
  have hl := ok_axes_length hf.ok
  have hkl := pyIdx_lt hk
  have hk' : f.axes[k]? = some f.axes[k] := List.getElem?_eq_getElem (by omega)
  have hv := hf.valid f.axes[k] (List.getElem_mem _)
  let r : Field K V := { f with matrix := f.matrix.flip k
                                axes := f.axes.set k (reverseAxis f.axes[k]) }
  have hm : Moved f.shape.length id (fun d => decide (d = k)) f.matrix r.matrix f.axes r.axes :=
    moved_flip hl hk'
  have hr : f.SameRest r := ⟨rfl, rfl, rfl, rfl⟩
  refine ⟨r, ?_, hr, moved_sound hf hm hr, hm⟩
  unfold Field.flip
  rw [axisIdx_of hk]
  have h1 : pyGet f.axes axis = .ok f.axes[k] := pyGet_of (by rw [hl, hk]) hk'
  have h2 : ∀ a, pySet f.axes axis a = .ok (f.axes.set k a) :=
    fun a => pySet_of a (by rw [hl, hk])
  simp only [h1, h2, bind, Except.bind, pure, Except.pure, reversed_eq spl hv]
  rfl

theorem transpose_sound {f : Field K V} (hf : f.Sound) {l : List ℤ} {p : List ℕ}
    (hlp : List.Forall₂ (fun i k => pyIdx f.shape.length i = some k) l p) (hp : p.Nodup)
    (hn : p.length = f.shape.length) :
    ∃ r, f.transpose (some l) = .ok r ∧ f.SameRest r ∧ r.Sound ∧
      Moved f.shape.length (fun d => p.getD d 0) (fun _ => false) f.matrix r.matrix f.axes r.axes := by
  have hl := ok_axes_length hf.ok
  have hlt : ∀ k ∈ p, k < f.shape.length := by
    intro k hk
    obtain ⟨i, hi, rfl⟩ := List.mem_iff_getElem.1 hk
    have := (List.forall₂_iff_get.1 hlp).2 i (by rw [hlp.length_eq]; exact hi) hi
    exact pyIdx_lt this
  have hax : ∃ axes' : List (Axis K), l.mapM (fun i => pyGet f.axes i) = .ok axes' ∧
      List.Forall₂ (fun (k : ℕ) (ax : Axis K) => f.axes[k]? = some ax) p axes' := by
    clear hp hn
    induction hlp with
    | nil => exact ⟨[], rfl, List.Forall₂.nil⟩
    | @cons i k l p h1 h2 ih =>
      obtain ⟨axes', h3, h4⟩ := ih (fun k hk => hlt k (List.mem_cons_of_mem _ hk))
      have hk : k < f.axes.length := by rw [hl]; exact hlt k (by simp)
      refine ⟨f.axes[k] :: axes', ?_, List.Forall₂.cons (List.getElem?_eq_getElem hk) h4⟩
      rw [List.mapM_cons, h3]
      have : pyGet f.axes i = .ok f.axes[k] :=
        pyGet_of (by rw [hl, h1]) (List.getElem?_eq_getElem hk)
      rw [this]
      rfl
  obtain ⟨axes', h1, h2⟩ := hax
  let r : Field K V := { f with axes := axes', matrix := f.matrix.transpose p }
  have hm : Moved f.shape.length (fun d => p.getD d 0) (fun _ => false) f.matrix r.matrix f.axes
    r.axes := moved_transpose hp hn hlt h2
  have hr : f.SameRest r := ⟨rfl, rfl, rfl, rfl⟩
  refine ⟨r, ?_, hr, moved_sound hf hm hr, hm⟩
  have h3 : normPerm f.shape.length l = .ok p := by
    unfold normPerm
    have : l.mapM (fun i => axisIdx f.shape.length i) = .ok p :=
      mapM_of_forall2 (hlp.imp fun a b hab => axisIdx_of hab)
    rw [this]
    show (if p.Nodup ∧ p.length = f.shape.length then (pure p : Res (List ℕ)) else _) = _
    rw [if_pos ⟨hp, hn⟩]
    rfl
  unfold Field.transpose
  simp only [Option.getD_some, h1, h3, dims_sound hf, bind, Except.bind, pure, Except.pure]
  rw [if_neg]
  rw [not_not, hlp.length_eq, hn]

theorem moved_congr {n : ℕ} {σ τ : ℕ → ℕ} {s t : ℕ → Bool} {m m' : Arr V}
    {axes axes' : List (Axis K)} (h : Moved n σ s m m' axes axes')
    (hst : ∀ d < n, σ d = τ d) (hs : ∀ d < n, s d = t d) : Moved n τ t m m' axes axes' := by
  refine ⟨h.dims, h.dims', h.naxes', ?_, ?_, ?_⟩
  · intro d hd; rw [← hst d hd]; exact h.shape d hd
  · intro d hd; rw [← hst d hd, ← hs d hd]; exact h.axis d hd
  · intro idx j hidx hj hij
    refine h.data idx j hidx hj ?_
    intro d hd
    rw [hst d hd, hs d hd]
    exact hij d hd

/-- Exchanging two numbers. -/
def swapIdx (a b d : ℕ) : ℕ := if d = a then b else if d = b then a else d

/-- The permutation of a rotation by `k` times 90 degrees. -/
def rotPerm (a b : ℕ) (k : ℤ) (d : ℕ) : ℕ := if k % 2 = 0 then d else swapIdx a b d

/-- The dimensions reversed by a rotation. -/
def rotFlip (a b : ℕ) (k : ℤ) (d : ℕ) : Bool :=
  if k % 4 = 0 then false else if k % 4 = 1 then decide (d = a)
  else if k % 4 = 2 then decide (d = a) || decide (d = b) else decide (d = b)

theorem swap_perm {n a b : ℕ} (ha : a < n) (hb : b < n) : IsPerm n (swapIdx a b) := by
  refine ⟨?_, ?_⟩
  · intro d hd; unfold swapIdx; split_ifs <;> omega
  · intro d hd e he h; unfold swapIdx at h; split_ifs at h <;> omega

theorem rot_perm {n a b : ℕ} (ha : a < n) (hb : b < n) (k : ℤ) : IsPerm n (rotPerm a b k) := by
  unfold rotPerm
  split_ifs
  · exact perm_id n
  · exact swap_perm ha hb

theorem rot_add {a b : ℕ} (hab : a ≠ b) (k l : ℤ) (d : ℕ) :
    rotPerm a b k (rotPerm a b l d) = rotPerm a b (k + l) d ∧
    (rotFlip a b l d ^^ rotFlip a b k (rotPerm a b l d)) = rotFlip a b (k + l) d := by
  have h4 : ∀ q : ℤ, q % 4 = 0 ∨ q % 4 = 1 ∨ q % 4 = 2 ∨ q % 4 = 3 := fun q => by omega
  have h2 : ∀ q : ℤ, q % 2 = (q % 4) % 2 := fun q => by omega
  have hs : (k + l) % 4 = (k % 4 + l % 4) % 4 := by omega
  unfold rotPerm rotFlip swapIdx
  rw [h2 k, h2 l, h2 (k + l), hs]
  rcases h4 k with h | h | h | h <;> rcases h4 l with h' | h' | h' | h' <;> rw [h, h'] <;>
    by_cases hda : d = a <;> by_cases hdb : d = b <;> simp_all <;> omega

theorem rotList {n a b : ℕ} (ha : a < n) (hb : b < n) :
    let p := ((List.range n).set a b).set b a
    List.Forall₂ (fun (i : ℤ) k => pyIdx n i = some k)
      ((((List.range n).map Int.ofNat).set a (b : ℤ)).set b (a : ℤ)) p ∧ p.Nodup ∧ p.length = n ∧
      ∀ d < n, p.getD d 0 = swapIdx a b d := by
  intro p
  have hlen : p.length = n := by simp [p]
  have hget : ∀ d < n, p[d]? = some (swapIdx a b d) := by
    intro d hd
    simp only [p]
    rw [List.getElem?_set, List.getElem?_set]
    unfold swapIdx
    by_cases h1 : b = d
    · subst h1
      simp [hb]
      intro h; exact h.symm
    · rw [if_neg h1]
      by_cases h2 : a = d
      · subst h2
        simp [ha]
      · rw [if_neg h2, if_neg (Ne.symm h2), if_neg (Ne.symm h1)]
        simp [hd]
  refine ⟨?_, ?_, hlen, ?_⟩
  · have : ((((List.range n).map Int.ofNat).set a (b : ℤ)).set b (a : ℤ)) = p.map Int.ofNat := by
      simp only [p, List.map_set]
      rfl
    rw [this, List.forall₂_map_left_iff, List.forall₂_same]
    intro k hk
    obtain ⟨i, hi, rfl⟩ := List.mem_iff_getElem.1 hk
    have h1 := hget i (by omega)
    rw [List.getElem?_eq_getElem hi] at h1
    simp only [Option.some.injEq] at h1
    rw [h1]
    exact pyIdx_nat ((swap_perm ha hb).1 i (by omega))
  · rw [List.nodup_iff_injective_getElem]
    intro x y hxy
    have hx := hget x (by have := x.2; omega)
    have hy := hget y (by have := y.2; omega)
    rw [List.getElem?_eq_getElem x.2] at hx
    rw [List.getElem?_eq_getElem y.2] at hy
    simp only [Option.some.injEq] at hx hy
    apply Fin.ext
    apply (swap_perm ha hb).2 x (by have := x.2; omega) y (by have := y.2; omega)
    rw [← hx, ← hy]
    exact hxy
  · intro d hd
    rw [List.getD_eq_getElem?_getD, hget d hd]
    rfl

theorem sameRest_trans {f g h : Field K V} (h1 : f.SameRest g) (h2 : g.SameRest h) : f.SameRest h :=
  ⟨h2.1.trans h1.1, h2.2.1.trans h1.2.1, h2.2.2.1.trans h1.2.2.1, h2.2.2.2.trans h1.2.2.2⟩

theorem pyIdx_bounds {n : ℕ} {i : ℤ} {k : ℕ} (h : pyIdx n i = some k) : i < n ∧ -(n : ℤ) ≤ i := by
  unfold pyIdx at h
  split_ifs at h <;> omega

theorem rot90_sound (spl : Splines K) {f : Field K V} (hf : f.Sound) {a b : ℤ} {A B : ℕ} (k : ℤ)
    (ha : pyIdx f.shape.length a = some A) (hb : pyIdx f.shape.length b = some B) (hAB : A ≠ B) :
    ∃ r, f.rot90 spl k a b = .ok r ∧ f.SameRest r ∧ r.Sound ∧
      Moved f.shape.length (rotPerm A B k) (rotFlip A B k) f.matrix r.matrix f.axes r.axes := by
  have hA := pyIdx_lt ha
  have hB := pyIdx_lt hb
  have hab : a ≠ b := by
    rintro rfl
    rw [ha] at hb
    exact hAB (Option.some.inj hb)
  have hrange : ¬ (a ≥ (f.shape.length : ℤ) ∨ a < -(f.shape.length : ℤ) ∨
      b ≥ (f.shape.length : ℤ) ∨ b < -(f.shape.length : ℤ)) := by
    have := pyIdx_bounds ha
    have := pyIdx_bounds hb
    omega
  obtain ⟨p1, p2, p3, p4⟩ := rotList hA hB
  have hl : ((List.range f.shape.length).map Int.ofNat).length = f.shape.length := by simp
  have g1 : pyGet ((List.range f.shape.length).map Int.ofNat) a = .ok (A : ℤ) :=
    pyGet_of (by rw [hl, ha]) (by simp [hA])
  have g2 : pyGet ((List.range f.shape.length).map Int.ofNat) b = .ok (B : ℤ) :=
    pyGet_of (by rw [hl, hb]) (by simp [hB])
  have g3 : pySet ((List.range f.shape.length).map Int.ofNat) a (B : ℤ) =
      .ok (((List.range f.shape.length).map Int.ofNat).set A (B : ℤ)) := pySet_of _ (by rw [hl, ha])
  have g4 : pySet (((List.range f.shape.length).map Int.ofNat).set A (B : ℤ)) b (A : ℤ) =
      .ok ((((List.range f.shape.length).map Int.ofNat).set A (B : ℤ)).set B (A : ℤ)) :=
    pySet_of _ (by rw [List.length_set, hl, hb])
  have h4 : k % 4 = 0 ∨ k % 4 = 1 ∨ k % 4 = 2 ∨ k % 4 = 3 := by omega
  unfold Field.rot90
  simp only [if_neg hab, if_neg hrange]
  rcases h4 with h | h | h | h
  · refine ⟨f, ?_, ⟨rfl, rfl, rfl, rfl⟩, hf, ?_⟩
    · rw [if_pos h]; rfl
    · refine moved_congr (moved_refl (ok_axes_length hf.ok)) ?_ ?_
      · intro d _
        unfold rotPerm
        rw [if_pos (by omega)]
        rfl
      · intro d _
        unfold rotFlip
        rw [if_pos h]
  · rw [if_neg (by omega), if_neg (by omega)]
    simp only [g1, g2, g3, g4, bind, Except.bind]
    rw [if_pos h]
    obtain ⟨r1, e1, q1, s1, m1⟩ := flip_sound spl hf hb
    have hn1 : r1.shape.length = f.shape.length := m1.dims'
    obtain ⟨r2, e2, q2, s2, m2⟩ := transpose_sound s1 (by rw [hn1]; exact p1) p2 (by rw [hn1]; exact p3)
    rw [hn1] at m2
    refine ⟨r2, ?_, sameRest_trans q1 q2, s2, ?_⟩
    · rw [e1]; exact e2
    · have hp : IsPerm f.shape.length
          (fun d => (((List.range f.shape.length).set A B).set B A).getD d 0) := by
        refine ⟨fun d hd => ?_, fun d hd e he hde => ?_⟩
        · simp only [p4 d hd]; exact (swap_perm hA hB).1 d hd
        · simp only [p4 d hd, p4 e he] at hde; exact (swap_perm hA hB).2 d hd e he hde
      refine moved_congr (moved_comp hp m1 m2) ?_ ?_
      · intro d hd
        simp only [id, p4 d hd, rotPerm]
        rw [if_neg (by omega)]
      · intro d hd
        simp only [p4 d hd, rotFlip]
        rw [if_neg (by omega), if_pos h]
        unfold swapIdx
        by_cases h1 : d = A
        · simp [h1]
        · by_cases h2 : d = B
          · subst h2; simp [h1, hAB]
          · simp [h1, h2]
  · rw [if_neg (by omega), if_pos h]
    obtain ⟨r1, e1, q1, s1, m1⟩ := flip_sound spl hf ha
    have hn1 : r1.shape.length = f.shape.length := m1.dims'
    obtain ⟨r2, e2, q2, s2, m2⟩ := flip_sound spl s1 (axis := b) (k := B) (by rw [hn1]; exact hb)
    rw [hn1] at m2
    refine ⟨r2, ?_, sameRest_trans q1 q2, s2, ?_⟩
    · rw [e1]; exact e2
    · refine moved_congr (moved_comp (perm_id _) m1 m2) ?_ ?_
      · intro d hd
        unfold rotPerm
        rw [if_pos (by omega)]
        rfl
      · intro d hd
        unfold rotFlip
        rw [if_neg (by omega), if_neg (by omega), if_pos h]
        simp only [id]
        by_cases h1 : d = A
        · subst h1; simp [hAB]
        · simp [h1]
  · rw [if_neg (by omega), if_neg (by omega)]
    simp only [g1, g2, g3, g4, bind, Except.bind]
    rw [if_neg (by omega)]
    obtain ⟨r1, e1, q1, s1, m1⟩ := transpose_sound hf p1 p2 p3
    have hn1 : r1.shape.length = f.shape.length := m1.dims'
    obtain ⟨r2, e2, q2, s2, m2⟩ := flip_sound spl s1 (axis := b) (k := B) (by rw [hn1]; exact hb)
    rw [hn1] at m2
    refine ⟨r2, ?_, sameRest_trans q1 q2, s2, ?_⟩
    · rw [e1]; exact e2
    · refine moved_congr (moved_comp (perm_id _) m1 m2) ?_ ?_
      · intro d hd
        simp only [id, p4 d hd, rotPerm]
        rw [if_neg (by omega)]
      · intro d hd
        unfold rotFlip
        rw [if_neg (by omega), if_neg (by omega), if_neg (by omega)]
        simp

theorem uniform_wf {e0 e1 : K} {n : ℕ} (he : e0 ≠ e1) (hn : 0 < n) :
    ValidAxis (linspace e0 e1 (n + 1)) (mids (linspace e0 e1 (n + 1))) (e0, e1) := by
  have hl := linspace_length e0 e1 (n + 1)
  have hne : linspace e0 e1 (n + 1) ≠ [] := by
    intro h; rw [h] at hl; simp at hl
  refine ⟨?_, linspace_head e0 e1 n, linspace_last e0 e1 n hn⟩
  rw [wf_iff]
  exact ((lt_or_gt_of_ne he).imp (mono_linspace_lt _ _ _) (mono_linspace_gt _ _ _)).imp
    (fun h => interleave_mids mid_lt h hne) (fun h => interleave_mids mid_gt h hne)

end Postpic.Fields
