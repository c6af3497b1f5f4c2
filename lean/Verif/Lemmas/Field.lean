import Mathlib.Tactic.Linarith
import Verif.Model.Field
import Verif.Spec.Field
import Verif.Lemmas.AxisSearch

/-!
# Lemmas about fields: axes describe the data
-/

set_option autoImplicit false
set_option linter.unusedSectionVars false

namespace Postpic.Fields

open Postpic Postpic.Axes Postpic.Spec

/-! ### Exceptions and lists -/

theorem bind_ok {α β : Type} {x : Res α} {g : α → Res β} {b : β} (h : (x >>= g) = .ok b) :
    ∃ a, x = .ok a ∧ g a = .ok b := by
  cases x with
  | error e => simp [bind, Except.bind] at h
  | ok a => exact ⟨a, rfl, h⟩

theorem mapM_ok {α β : Type} {g : α → Res β} {l : List α} {r : List β} (h : l.mapM g = .ok r) :
    List.Forall₂ (fun a b => g a = .ok b) l r := by
  induction l generalizing r with
  | nil =>
    simp [List.mapM_nil, pure, Except.pure] at h
    subst h
    exact List.Forall₂.nil
  | cons a l ih =>
    rw [List.mapM_cons] at h
    obtain ⟨b, hb, h⟩ := bind_ok h
    obtain ⟨bs, hbs, h⟩ := bind_ok h
    simp [pure, Except.pure] at h
    subst h
    exact List.Forall₂.cons hb (ih hbs)

theorem mapM_of_forall2 {α β : Type} {g : α → Res β} {l : List α} {r : List β}
    (h : List.Forall₂ (fun a b => g a = .ok b) l r) : l.mapM g = .ok r := by
  induction h with
  | nil => rfl
  | cons h1 h2 ih =>
    rw [List.mapM_cons, h1, ih]
    rfl

theorem pyIdx_lt {n : ℕ} {i : ℤ} {k : ℕ} (h : pyIdx n i = some k) : k < n := by
  unfold pyIdx at h
  split_ifs at h <;> simp at h <;> omega

theorem pyIdx_nat {n k : ℕ} (h : k < n) : pyIdx n (k : ℤ) = some k := by
  unfold pyIdx
  rw [if_pos (by omega), if_pos (by omega)]
  simp

theorem pyDel_length {α : Type} {l l' : List α} {i : ℤ} (h : pyDel l i = .ok l') :
    l'.length + 1 = l.length := by
  unfold pyDel at h
  split at h
  · rename_i k hk
    have := pyIdx_lt hk
    simp at h
    subst h
    rw [List.length_eraseIdx]
    split_ifs <;> omega
  · simp at h

theorem pySet_length {α : Type} {l l' : List α} {i : ℤ} {v : α} (h : pySet l i v = .ok l') :
    l'.length = l.length := by
  unfold pySet at h
  split at h
  · simp at h
    subst h
    simp
  · simp at h

theorem pySet_eq {α : Type} {l l' : List α} {i : ℤ} {v : α} (h : pySet l i v = .ok l') :
    ∃ k, pyIdx l.length i = some k ∧ l' = l.set k v := by
  unfold pySet at h
  split at h
  · rename_i k hk
    simp at h
    exact ⟨k, hk, h.symm⟩
  · simp at h

theorem pyGet_eq {α : Type} {l : List α} {i : ℤ} {v : α} (h : pyGet l i = .ok v) :
    ∃ k, pyIdx l.length i = some k ∧ l[k]? = some v := by
  unfold pyGet at h
  split at h
  · rename_i k hk
    split at h
    · rename_i w hw
      simp at h
      exact ⟨k, hk, by rw [hw, h]⟩
    · simp at h
  · simp at h

theorem delAll_length {α : Type} {l l' : List α} {is : List ℤ} (h : delAll l is = .ok l') :
    l'.length + is.length = l.length := by
  induction is generalizing l with
  | nil => simp [delAll] at h; subst h; simp
  | cons i is ih =>
    obtain ⟨a, ha, h⟩ := bind_ok h
    have := ih h
    have := pyDel_length ha
    simp
    omega

theorem keep_length {α β : Type} {sel : List Bool} {l : List α} {m : List β}
    (h : l.length = m.length) : (keep sel l).length = (keep sel m).length := by
  induction sel generalizing l m with
  | nil => simp [keep]
  | cons s sel ih =>
    cases l with
    | nil => cases m with
      | nil => simp [keep]
      | cons => simp at h
    | cons a l => cases m with
      | nil => simp at h
      | cons b m =>
        simp only [List.length_cons, Nat.add_right_cancel_iff] at h
        cases s
        · simp [keep, ih h]
        · simp only [keep]; exact ih h

variable {K V : Type} [_root_.Field K] [LinearOrder K]

/-- The invariant of fields. -/
abbrev Field.Ok (f : Field K V) : Prop :=
  AxesDescribe f.shape (f.axes.map Axis.len) f.ats.length f.tao.length

/-! ### The constructor -/

theorem checkAxisObj_ok {shape : List ℕ} {i : ℕ} {ax : Axis K} (h : checkAxisObj shape i ax = .ok ()) :
    i ≤ 2 ∧ shape[i]? = some ax.len := by
  unfold checkAxisObj at h
  split_ifs at h with h2
  split at h
  · simp at h
  · rename_i n hn
    split_ifs at h with h3
    exact ⟨by omega, by rw [hn, h3]⟩

theorem checkAxes_ok {shape : List ℕ} {i : ℕ} {axs : List (Axis K)}
    (h : checkAxes shape i axs = .ok ()) (hi : i ≤ shape.length) :
    axs.length + i ≤ shape.length ∧ axs.map Axis.len = (shape.drop i).take axs.length := by
  induction axs generalizing i with
  | nil => simp [hi]
  | cons ax axs ih =>
    obtain ⟨_, h1, h⟩ := bind_ok h
    obtain ⟨-, h2⟩ := checkAxisObj_ok h1
    have hlt : i < shape.length := (List.getElem?_eq_some_iff.1 h2).1
    have h3 := (List.getElem?_eq_some_iff.1 h2).2
    obtain ⟨h4, h5⟩ := ih h (by omega)
    refine ⟨by simp; omega, ?_⟩
    rw [List.drop_eq_getElem_cons hlt]
    simp [h3, h5]

theorem checkAxes_of_eq {shape : List ℕ} {axs : List (Axis K)} (h : axs.map Axis.len = shape)
    (h3 : shape.length ≤ 3) : checkAxes shape 0 axs = .ok () := by
  have key : ∀ (i : ℕ) (axs : List (Axis K)), axs.map Axis.len = shape.drop i →
      checkAxes shape i axs = .ok () := by
    intro i axs
    induction axs generalizing i with
    | nil => intro _; rfl
    | cons ax axs ih =>
      intro h
      have hlt : i < shape.length := by
        by_contra hc
        rw [List.drop_eq_nil_of_le (by omega)] at h
        simp at h
      rw [List.drop_eq_getElem_cons hlt] at h
      simp only [List.map_cons, List.cons.injEq] at h
      have : checkAxisObj shape i ax = .ok () := by
        unfold checkAxisObj
        rw [if_neg (by omega), List.getElem?_eq_getElem hlt]
        simp [h.1]
      simp only [checkAxes, this]
      exact ih _ h.2
  exact key 0 axs (by simpa using h)

theorem mkField_ok {m : Arr V} {name unit : String} {axes : List (Axis K)}
    {ats : List (Option Bool)} {tao : List (Option K)} {f : Field K V}
    (h : mkField m name unit axes ats tao = .ok f) :
    f = ⟨name, unit, m, axes, ats, tao⟩ ∧ axes.map Axis.len = m.shape := by
  unfold mkField at h
  split_ifs at h with h1
  obtain ⟨_, h2, h⟩ := bind_ok h
  simp [pure, Except.pure] at h
  obtain ⟨h3, h4⟩ := checkAxes_ok h2 (by omega)
  refine ⟨h.symm, ?_⟩
  rw [h4]
  simp only [List.drop_zero]
  rw [List.take_of_length_le (by omega)]

theorem mkField_of_eq {m : Arr V} {name unit : String} {axes : List (Axis K)}
    {ats : List (Option Bool)} {tao : List (Option K)} (h : axes.map Axis.len = m.shape)
    (h3 : m.shape.length ≤ 3) :
    mkField m name unit axes ats tao = .ok ⟨name, unit, m, axes, ats, tao⟩ := by
  unfold mkField
  have : axes.length = m.shape.length := by rw [← h]; simp
  rw [if_neg (by omega), checkAxes_of_eq h h3]
  rfl

theorem mkField_Ok {m : Arr V} {name unit : String} {axes : List (Axis K)}
    {ats : List (Option Bool)} {tao : List (Option K)} {f : Field K V}
    (h : mkField m name unit axes ats tao = .ok f) (h1 : ats.length = axes.length)
    (h2 : tao.length = axes.length) : f.Ok := by
  obtain ⟨rfl, h'⟩ := mkField_ok h
  have : axes.length = m.shape.length := by rw [← h']; simp
  exact ⟨h', h1.trans this, h2.trans this⟩

/-! ### Each operation keeps the invariant -/

theorem ok_axes_length {f : Field K V} (h : f.Ok) : f.axes.length = f.shape.length := by
  have := congrArg List.length h.lengths
  simpa using this

theorem binaryMetaRev_ok {a b r : List (Meta K)} (h : binaryMetaRev a b = .ok r) :
    r.length = max a.length b.length := by
  induction a generalizing b r with
  | nil => simp [binaryMetaRev] at h; subst h; simp
  | cons x a ih =>
    cases b with
    | nil => simp [binaryMetaRev] at h; subst h; simp
    | cons y b =>
      simp only [binaryMetaRev] at h
      have key : ∃ z s, binaryMetaRev a b = .ok s ∧ r = z :: s := by
        split_ifs at h
        all_goals
          obtain ⟨z, _, h⟩ := bind_ok h
          obtain ⟨s, hs, h⟩ := bind_ok h
          simp [pure, Except.pure] at h
          exact ⟨z, s, hs, h.symm⟩
      obtain ⟨z, s, hs, rfl⟩ := key
      simp [ih hs]

theorem binary_Ok {g : V → V → V} {f h r : Field K V} (hr : f.binary g h = .ok r) : r.Ok := by
  obtain ⟨m, _, hr⟩ := bind_ok hr
  obtain ⟨a, _, hr⟩ := bind_ok hr
  exact mkField_Ok hr (by simp) (by simp)

theorem binaryNumber_Ok {g : V → V → V} {f r : Field K V} {c : V} (hf : f.Ok)
    (hr : f.binaryNumber g c = .ok r) : r.Ok :=
  mkField_Ok hr (by rw [ok_axes_length hf, hf.states]) (by rw [ok_axes_length hf, hf.origins])

theorem binaryArray_Ok {g : V → V → V} {f r : Field K V} {b : Arr V} (hf : f.Ok)
    (hr : f.binaryArray g b = .ok r) : r.Ok := by
  obtain ⟨m, _, hr⟩ := bind_ok hr
  split_ifs at hr
  · simp [throw, throwThe, MonadExceptOf.throw, bind, Except.bind] at hr
  · exact mkField_Ok hr (by rw [ok_axes_length hf, hf.states]) (by rw [ok_axes_length hf, hf.origins])

theorem pickAxis_ok {spl : Splines K} {ax : Axis K} {k : NKey} {r : Option (Axis K) × Pick}
    (h : pickAxis spl ax k = .ok r) :
    (r.1 = none ∧ ∃ j, r.2 = .one j) ∨ (∃ ax' l, r.1 = some ax' ∧ r.2 = .many l) := by
  cases k with
  | int i =>
    simp only [pickAxis] at h
    split at h
    · simp at h; subst h; exact Or.inl ⟨rfl, _, rfl⟩
    · simp at h
  | slice s =>
    obtain ⟨a, _, h⟩ := bind_ok h
    simp [pure, Except.pure] at h
    subst h
    exact Or.inr ⟨_, _, rfl, rfl⟩

theorem picks_lengths {spl : Splines K} {l : List (Axis K × NKey)}
    {picks : List (Option (Axis K) × Pick)}
    (h : List.Forall₂ (fun a b => pickAxis spl a.1 a.2 = .ok b) l picks) {α : Type} (m : List α)
    (hm : m.length = picks.length) :
    (picks.filterMap (·.1)).length = (pickShape (picks.map (·.2))).length ∧
    (keep (picks.map fun p => p.1.isNone) m).length = (pickShape (picks.map (·.2))).length := by
  induction h generalizing m with
  | nil => simp [pickShape, keep]
  | @cons a b l picks h1 h2 ih =>
    cases m with
    | nil => simp at hm
    | cons x m =>
      have ih := ih m (by simpa using hm)
      rcases pickAxis_ok h1 with ⟨e1, j, e2⟩ | ⟨ax', l', e1, e2⟩
      · simp [e1, e2, pickShape, keep, ih]
      · simp [e1, e2, pickShape, keep, ih]

theorem dims_eq {f : Field K V} {n : ℕ} (h : (n : ℤ) = f.dims) : n = f.shape.length := by
  unfold Field.dims at h
  split_ifs at h
  simpa using h

theorem getitem_Ok {spl : Splines K} {f r : Field K V} {key : List (Key K)} (hf : f.Ok)
    (hr : f.getitem spl key = .ok r) : r.Ok := by
  unfold Field.getitem at hr
  split_ifs at hr with hd
  · cases hr
  obtain ⟨keys, hk, hr⟩ := bind_ok hr
  obtain ⟨picks, hp, hr⟩ := bind_ok hr
  obtain ⟨_, hc, hr⟩ := bind_ok hr
  simp [pure, Except.pure] at hr
  have hk := mapM_ok hk
  have hp := mapM_ok hp
  have l1 := hk.length_eq
  have l2 := hp.length_eq
  have l3 := dims_eq (not_not.1 hd)
  have l4 := ok_axes_length hf
  simp only [List.length_zip] at l1 l2
  have l5 : picks.length = f.shape.length := by omega
  have q1 := picks_lengths hp f.ats (by rw [hf.states, l5])
  have q2 := picks_lengths hp f.tao (by rw [hf.origins, l5])
  obtain ⟨c1, c2⟩ := checkAxes_ok hc (by omega)
  subst hr
  refine ⟨?_, ?_, ?_⟩
  · show (picks.filterMap (·.1)).map Axis.len = pickShape (picks.map (·.2))
    rw [c2, List.drop_zero, q1.1]
    exact List.take_length
  · exact q1.2
  · exact q2.2

theorem squeeze_Ok {spl : Splines K} {f r : Field K V} (hf : f.Ok)
    (hr : f.squeeze spl = .ok r) : r.Ok := by
  obtain ⟨x, hx, hr⟩ := bind_ok hr
  split_ifs at hr
  · simp [throw, throwThe, MonadExceptOf.throw, bind, Except.bind] at hr
  · simp [pure, Except.pure] at hr
    subst hr
    exact getitem_Ok hf hx

theorem mkAxis_node_len {spl : Splines K} {ns : List K} {ax : Axis K}
    (h : mkAxis spl { gridNode := some ns } = .ok ax) (h2 : ns.length = 2) : ax.len = 1 := by
  match ns, h2 with
  | [a, b], _ =>
    simp only [mkAxis, bind, Except.bind, pure, Except.pure, gridOfNodes, mids] at h
    split_ifs at h with h3 h4
    · simp at h4
    · simp at h
      subst h
      rfl

theorem atleastNd_Ok {spl : Splines K} {f r : Field K V} {n : ℤ} (hf : f.Ok)
    (hr : f.atleastNd spl n = .ok r) : r.Ok := by
  unfold Field.atleastNd at hr
  split_ifs at hr with hd
  · simp at hr; subst hr; exact hf
  · obtain ⟨ax, hax, hr⟩ := bind_ok hr
    simp [pure, Except.pure] at hr
    have hl := mkAxis_node_len hax rfl
    subst hr
    refine ⟨?_, ?_, ?_⟩
    · have := hf.lengths
      simp [Field.shape, hl] at this ⊢
      exact this
    · have := hf.states
      simp [Field.shape] at this ⊢
      exact this
    · have := hf.origins
      simp [Field.shape] at this ⊢
      exact this

theorem axisIdx_ok {n : ℕ} {i : ℤ} {k : ℕ} (h : axisIdx n i = .ok k) : pyIdx n i = some k := by
  unfold axisIdx at h
  split at h
  · rename_i k' hk
    cases h
    exact hk
  · cases h

theorem axisIdx_of {n : ℕ} {i : ℤ} {k : ℕ} (h : pyIdx n i = some k) : axisIdx n i = .ok k := by
  unfold axisIdx
  rw [h]

theorem normPerm_ok {n : ℕ} {axes : List ℤ} {p : List ℕ} (h : normPerm n axes = .ok p) :
    List.Forall₂ (fun i k => pyIdx n i = some k) axes p ∧ p.Nodup ∧ p.length = n := by
  obtain ⟨q, hq, h⟩ := bind_ok h
  split_ifs at h with hn
  · simp [pure, Except.pure] at h
    subst h
    refine ⟨(mapM_ok hq).imp ?_, hn⟩
    intro a b hab
    exact axisIdx_ok hab

theorem transpose_eq {f r : Field K V} {axes : Option (List ℤ)} (hf : f.Ok)
    (hr : f.transpose axes = .ok r) :
    ∃ p : List ℕ, p.Nodup ∧ p.length = f.shape.length ∧ (∀ k ∈ p, k < f.shape.length) ∧
      List.Forall₂ (fun i k => pyIdx f.shape.length i = some k)
        (axes.getD (((List.range f.dims.toNat).map Int.ofNat).reverse)) p ∧
      List.Forall₂ (fun (k : ℕ) (ax : Axis K) => f.axes[k]? = some ax) p r.axes ∧
      r = { f with axes := r.axes, matrix := f.matrix.transpose p } := by
  unfold Field.transpose at hr
  generalize axes.getD (((List.range f.dims.toNat).map Int.ofNat).reverse) = l at hr ⊢
  simp only at hr
  split_ifs at hr with hd
  · cases hr
  obtain ⟨newaxes, h1, hr⟩ := bind_ok hr
  obtain ⟨p, h2, hr⟩ := bind_ok hr
  simp [pure, Except.pure] at hr
  obtain ⟨h3, h4, h5⟩ := normPerm_ok h2
  have h1 := mapM_ok h1
  refine ⟨p, h4, h5, ?_, h3, ?_, ?_⟩
  · intro k hk
    obtain ⟨i, hi, rfl⟩ := List.mem_iff_getElem.1 hk
    have := List.forall₂_iff_get.1 h3
    have h6 := this.2 i (by rw [this.1]; exact hi) hi
    exact pyIdx_lt h6
  · subst hr
    simp only
    rw [List.forall₂_iff_get] at h1 h3 ⊢
    refine ⟨by omega, ?_⟩
    intro i hi1 hi2
    have ha := h1.2 i (by omega) hi2
    have hb := h3.2 i (by omega) hi1
    obtain ⟨k, hk1, hk2⟩ := pyGet_eq ha
    rw [ok_axes_length hf, hb] at hk1
    simp at hk1
    subst hk1
    exact hk2
  · subst hr; rfl

theorem transpose_Ok {f r : Field K V} {axes : Option (List ℤ)} (hf : f.Ok)
    (hr : f.transpose axes = .ok r) : r.Ok := by
  obtain ⟨p, h1, h2, h3, -, h4, h5⟩ := transpose_eq hf hr
  have hlen : r.axes.length = p.length := h4.length_eq.symm
  rw [h5]
  have hst := hf.states
  have hor := hf.origins
  refine ⟨?_, ?_, ?_⟩
  · simp only [Field.shape, Arr.transpose]
    apply List.ext_getElem
    · simp [hlen]
    · intro i hi1 hi2
      simp only [List.getElem_map]
      simp only [List.length_map] at hi1 hi2
      have := (List.forall₂_iff_get.1 h4).2 i hi2 hi1
      simp only [List.get_eq_getElem] at this
      have hl := congrArg (fun l => l[p[i]]?) hf.lengths
      simp only [List.getElem?_map, this] at hl
      simp only [Option.map_some] at hl
      rw [List.getD_eq_getElem?_getD]
      unfold Field.shape at hl
      rw [← hl]
      rfl
  · simp [Field.shape, Arr.transpose, h2]; exact hst
  · simp [Field.shape, Arr.transpose, h2]; exact hor

theorem swapaxes_Ok {f r : Field K V} {a b : ℤ} (hf : f.Ok)
    (hr : f.swapaxes a b = .ok r) : r.Ok := by
  obtain ⟨l, _, hr⟩ := bind_ok hr
  obtain ⟨l', _, hr⟩ := bind_ok hr
  exact transpose_Ok hf hr

theorem reversed_len {spl : Splines K} {ax ax' : Axis K} (h : ax.reversed spl = .ok ax') :
    ax'.grid = ax.grid.reverse ∧ ax'.gridNode = ax.gridNode.reverse := by
  unfold Axis.reversed mkAxis at h
  simp only [bind, Except.bind, pure, Except.pure, throw, throwThe, MonadExceptOf.throw] at h
  (repeat' split at h) <;> simp_all <;> (subst h; simp)

theorem map_set_len {axes : List (Axis K)} {k : ℕ} {ax : Axis K} {n : ℕ}
    (h : (axes.map Axis.len)[k]? = some n) (hn : ax.len = n) :
    (axes.set k ax).map Axis.len = axes.map Axis.len := by
  rw [List.map_set, hn]
  apply List.ext_getElem?
  intro i
  rw [List.getElem?_set]
  split_ifs with h1 h2
  · subst h1; exact h.symm
  · subst h1
    simp at h2
    simp [h2]
  · rfl

theorem flip_eq {spl : Splines K} {f r : Field K V} {axis : ℤ}
    (hr : f.flip spl axis = .ok r) :
    ∃ k k' ax ax', pyIdx f.shape.length axis = some k ∧ pyIdx f.axes.length axis = some k' ∧
      f.axes[k']? = some ax ∧ ax.reversed spl = .ok ax' ∧
      r = { f with matrix := f.matrix.flip k, axes := f.axes.set k' ax' } := by
  obtain ⟨k, hk, hr⟩ := bind_ok hr
  have hk := axisIdx_ok hk
  obtain ⟨ax, hax, hr⟩ := bind_ok hr
  obtain ⟨ax', hax', hr⟩ := bind_ok hr
  obtain ⟨axes, haxes, hr⟩ := bind_ok hr
  simp [pure, Except.pure] at hr
  obtain ⟨k1, hk1, hk2⟩ := pyGet_eq hax
  obtain ⟨k2, hk3, hk4⟩ := pySet_eq haxes
  rw [hk1] at hk3
  simp at hk3
  subst hk3
  exact ⟨k, k1, ax, ax', hk, hk1, hk2, hax', by rw [← hr, hk4]⟩

theorem flip_Ok {spl : Splines K} {f r : Field K V} {axis : ℤ} (hf : f.Ok)
    (hr : f.flip spl axis = .ok r) : r.Ok := by
  obtain ⟨k, k', ax, ax', h1, h2, h3, h4, rfl⟩ := flip_eq hr
  refine ⟨?_, ?_, ?_⟩
  · rw [map_set_len (n := ax.len) (by simp [h3]) (by simp [Axis.len, (reversed_len h4).1])]
    exact hf.lengths
  · exact hf.states
  · exact hf.origins

theorem rot90_Ok {spl : Splines K} {f r : Field K V} {k a b : ℤ} (hf : f.Ok)
    (hr : f.rot90 spl k a b = .ok r) : r.Ok := by
  unfold Field.rot90 at hr
  simp only [bind, Except.bind, pure, Except.pure, throw, throwThe, MonadExceptOf.throw] at hr
  split_ifs at hr
  · simp at hr; subst hr; exact hf
  · split at hr
    · simp at hr
    · rename_i x hx
      exact flip_Ok (flip_Ok hf hx) hr
  · split at hr
    · simp at hr
    split at hr
    · simp at hr
    split at hr
    · simp at hr
    split at hr
    · simp at hr
    split at hr
    · simp at hr
    · rename_i x hx
      exact transpose_Ok (flip_Ok hf hx) hr
  · split at hr
    · simp at hr
    split at hr
    · simp at hr
    split at hr
    · simp at hr
    split at hr
    · simp at hr
    split at hr
    · simp at hr
    · rename_i x hx
      exact flip_Ok (transpose_Ok hf hx) hr

theorem shrinkAxes_length {spl : Splines K} {axes axes' : List (Axis K)} {is : List ℤ}
    (h : shrinkAxes spl axes is = .ok axes') : axes'.length = axes.length := by
  induction is generalizing axes with
  | nil => simp [shrinkAxes] at h; rw [h]
  | cons i is ih =>
    obtain ⟨ax, _, h⟩ := bind_ok h
    obtain ⟨ax', _, h⟩ := bind_ok h
    obtain ⟨a, ha, h⟩ := bind_ok h
    rw [ih h, pySet_length ha]

theorem reduce_Ok {spl : Splines K} {red : List V → V} {f r : Field K V} {axis : Option (List ℤ)}
    {kd : Bool} (hf : f.Ok) (hr : f.reduce spl red axis kd = .ok r) : r.Ok := by
  unfold Field.reduce at hr
  simp only at hr
  have hl := ok_axes_length hf
  split_ifs at hr
  · obtain ⟨axes, h1, hr⟩ := bind_ok hr
    obtain ⟨sel, h2, hr⟩ := bind_ok hr
    have := shrinkAxes_length h1
    exact mkField_Ok hr (by rw [hf.states]; omega) (by rw [hf.origins]; omega)
  · obtain ⟨axes, h1, hr⟩ := bind_ok hr
    obtain ⟨tao, h2, hr⟩ := bind_ok hr
    obtain ⟨ats, h3, hr⟩ := bind_ok hr
    obtain ⟨sel, h4, hr⟩ := bind_ok hr
    have h1 := delAll_length h1
    have h2 := delAll_length h2
    have h3 := delAll_length h3
    have := hf.states
    have := hf.origins
    exact mkField_Ok hr (by omega) (by omega)

section
variable [AddCommMonoid V] [Module K V]

theorem mulBoxes_Ok {f o r : Field K V} {i : ℤ} (hf : f.Ok) (hr : f.mulBoxes o i = .ok r) : r.Ok := by
  obtain ⟨ax, _, hr⟩ := bind_ok hr
  split at hr
  · simp [throw, throwThe, MonadExceptOf.throw] at hr
  · split_ifs at hr
    · simp [throw, throwThe, MonadExceptOf.throw, bind, Except.bind] at hr
    · exact mkField_Ok hr (by rw [ok_axes_length hf, hf.states])
        (by rw [ok_axes_length hf, hf.origins])

theorem mulAllBoxes_Ok {f o r : Field K V} {is : List ℤ} (hf : f.Ok)
    (hr : mulAllBoxes o f is = .ok r) : r.Ok := by
  induction is generalizing f with
  | nil => simp [mulAllBoxes] at hr; subst hr; exact hf
  | cons i is ih =>
    obtain ⟨x, hx, hr⟩ := bind_ok hr
    exact ih (mulBoxes_Ok hf hx) hr

theorem integrateConstant_Ok {spl : Splines K} {f r : Field K V} {axes : List ℤ} (hf : f.Ok)
    (hr : f.integrateConstant spl axes = .ok r) : r.Ok := by
  obtain ⟨x, hx, hr⟩ := bind_ok hr
  exact reduce_Ok (mulAllBoxes_Ok hf hx) hr

theorem pyDel_eq {α : Type} {l l' : List α} {i : ℤ} (h : pyDel l i = .ok l') :
    ∃ k, pyIdx l.length i = some k ∧ l' = l.eraseIdx k := by
  unfold pyDel at h
  split at h
  · rename_i k hk
    simp at h
    exact ⟨k, hk, h.symm⟩
  · simp at h

theorem dims_toNat {f : Field K V} {i : ℤ} {k : ℕ} (h : pyIdx f.dims.toNat i = some k) :
    pyIdx f.shape.length i = some k := by
  unfold Field.dims at h
  split_ifs at h
  · have := pyIdx_lt h
    simp at this
  · simpa using h

theorem integrateStep_eq {f r : Field K V} {i : ℤ} (hf : f.Ok)
    (hr : f.integrateStep i = .ok r) :
    ∃ k ax, pyIdx f.shape.length i = some k ∧ f.axes[k]? = some ax ∧
      f.shape[k]? = some (Axis.boxes ax).length ∧
      r = { f with
        matrix := ⟨f.shape.eraseIdx k, fun idx => ((List.range (Axis.boxes ax).length).map fun j =>
          (Axis.boxes ax).getD j 0 • f.matrix.at' (idx.insertIdx k j)).sum⟩
        axes := f.axes.eraseIdx k, ats := f.ats.eraseIdx k, tao := f.tao.eraseIdx k } := by
  obtain ⟨ax, hax, hr⟩ := bind_ok hr
  split at hr
  · simp [throw, throwThe, MonadExceptOf.throw] at hr
  rename_i k hk
  have hk := dims_toNat hk
  split_ifs at hr with hs
  · simp [throw, throwThe, MonadExceptOf.throw, bind, Except.bind] at hr
  push Not at hs
  obtain ⟨axes, h1, hr⟩ := bind_ok hr
  obtain ⟨ats, h2, hr⟩ := bind_ok hr
  obtain ⟨tao, h3, hr⟩ := bind_ok hr
  simp [pure, Except.pure] at hr
  obtain ⟨k0, h4, h5⟩ := pyGet_eq hax
  obtain ⟨k1, h6, rfl⟩ := pyDel_eq h1
  obtain ⟨k2, h7, rfl⟩ := pyDel_eq h2
  obtain ⟨k3, h8, rfl⟩ := pyDel_eq h3
  rw [ok_axes_length hf, hk] at h4 h6
  rw [hf.states, hk] at h7
  rw [hf.origins, hk] at h8
  simp at h4 h6 h7 h8
  subst h4 h6 h7 h8
  exact ⟨k, ax, hk, h5, hs, hr.symm⟩

theorem integrateStep_Ok {f r : Field K V} {i : ℤ} (hf : f.Ok)
    (hr : f.integrateStep i = .ok r) : r.Ok := by
  obtain ⟨k, ax, h1, h2, h3, rfl⟩ := integrateStep_eq hf hr
  have hlt := pyIdx_lt h1
  refine ⟨?_, ?_, ?_⟩
  · simp only [Field.shape]
    rw [← List.eraseIdx_map, hf.lengths]
    rfl
  · simp only [Field.shape] at *
    rw [List.length_eraseIdx, List.length_eraseIdx, hf.states]
    rfl
  · simp only [Field.shape] at *
    rw [List.length_eraseIdx, List.length_eraseIdx, hf.origins]
    rfl

theorem fastLoop_Ok {f r : Field K V} {is : List ℤ} (hf : f.Ok)
    (hr : fastLoop f is = .ok r) : r.Ok := by
  induction hn : is.length generalizing f is with
  | zero =>
    rw [List.length_eq_zero_iff] at hn
    subst hn
    simp [fastLoop] at hr
    subst hr
    exact hf
  | succ n ih =>
    cases is with
    | nil => simp at hn
    | cons i is =>
      rw [fastLoop] at hr
      obtain ⟨x, hx, hr⟩ := bind_ok hr
      exact ih (integrateStep_Ok hf hx) hr (by simpa using hn)

theorem integrateFast_Ok {f r : Field K V} {axes : List ℤ} (hf : f.Ok)
    (hr : f.integrateFast axes = .ok r) : r.Ok := by
  obtain ⟨x, hx, hr⟩ := bind_ok hr
  exact fastLoop_Ok hf hr

theorem halfResolution_eq {spl : Splines K} {f r : Field K V} {axis : ℕ}
    (hr : f.halfResolution spl axis = .ok r) :
    ∃ n ax ax', axis ≤ 2 ∧ f.shape[axis]? = some n ∧ f.axes[axis]? = some ax ∧
      ax.halfResolution spl = .ok ax' ∧ ax'.len = n / 2 ∧
      r = { f with
        matrix := ⟨f.shape.set axis (n / 2), fun idx =>
          (1 / 2 : K) • (f.matrix.at' (idx.modify axis fun k => 2 * k) +
            f.matrix.at' (idx.modify axis fun k => 2 * k + 1))⟩
        axes := f.axes.set axis ax', tao := f.tao.set axis none } := by
  unfold Field.halfResolution at hr
  split_ifs at hr with h2
  split at hr
  · rename_i n ax hn hax
    obtain ⟨ax', h3, hr⟩ := bind_ok hr
    obtain ⟨_, h4, hr⟩ := bind_ok hr
    have hr := Except.ok.inj hr
    have := (checkAxisObj_ok h4).2
    have hlt := (List.getElem?_eq_some_iff.1 hn).1
    rw [List.getElem?_set_self hlt] at this
    simp at this
    exact ⟨n, ax, ax', by omega, hn, hax, h3, this.symm, hr.symm⟩
  · simp at hr

theorem halfResolution_Ok {spl : Splines K} {f r : Field K V} {axis : ℕ} (hf : f.Ok)
    (hr : f.halfResolution spl axis = .ok r) : r.Ok := by
  obtain ⟨n, ax, ax', h1, h2, h3, h4, h5, rfl⟩ := halfResolution_eq hr
  refine ⟨?_, ?_, ?_⟩
  · simp only [Field.shape] at *
    rw [List.map_set, hf.lengths, h5]
    rfl
  · simp only [Field.shape, List.length_set]
    exact hf.states
  · simp only [Field.shape, List.length_set]
    exact hf.origins

theorem halveLoop_Ok {spl : Splines K} {m : ℤ} {i fuel : ℕ} {f r : Field K V} (hf : f.Ok)
    (hr : halveLoop spl m i fuel f = some (.ok r)) : r.Ok := by
  induction fuel generalizing f with
  | zero => simp [halveLoop] at hr
  | succ fuel ih =>
    simp only [halveLoop] at hr
    split at hr
    · simp at hr
    · split_ifs at hr
      · split at hr
        · rename_i x hx
          exact ih (halfResolution_Ok hf hx) hr
        · simp at hr
      · simp at hr
        subst hr
        exact hf

theorem reduceLoop_Ok {spl : Splines K} {m : ℤ} {fuel : ℕ} {is : List ℕ} {f r : Field K V}
    (hf : f.Ok) (hr : reduceLoop spl m fuel is f = some (.ok r)) : r.Ok := by
  induction is generalizing f with
  | nil => simp [reduceLoop] at hr; subst hr; exact hf
  | cons i is ih =>
    simp only [reduceLoop] at hr
    split at hr
    · rename_i x hx
      exact ih (halveLoop_Ok hf hx) hr
    · rename_i h
      exact absurd hr (h r)

theorem autoreduce_Ok {spl : Splines K} {m : ℤ} {fuel : ℕ} {f r : Field K V}
    (hf : f.Ok) (hr : f.autoreduce spl m fuel = some (.ok r)) : r.Ok :=
  reduceLoop_Ok hf hr

end

theorem derivativeStagger_Ok {V : Type} [AddCommGroup V] [Module K V] {spl : Splines K}
    {f r : Field K V} {axis : ℤ}
    (hf : f.Ok) (hr : f.derivativeStagger spl axis = .ok r) : r.Ok := by
  obtain ⟨ax, _, hr⟩ := bind_ok hr
  split_ifs at hr
  · simp [throw, throwThe, MonadExceptOf.throw, bind, Except.bind] at hr
  · obtain ⟨ax', _, hr⟩ := bind_ok hr
    obtain ⟨axes, ha, hr⟩ := bind_ok hr
    have hl := pySet_length ha
    have := ok_axes_length hf
    split at hr
    · simp [throw, throwThe, MonadExceptOf.throw] at hr
    · obtain ⟨_, _, hr⟩ := bind_ok hr
      exact mkField_Ok hr (by simp; omega) (by simp; omega)

theorem replaceData_Ok {W : Type} {f : Field K V} {m : Arr W} {r : Field K W} (hf : f.Ok)
    (hr : f.replaceData m = .ok r) : r.Ok := by
  unfold Field.replaceData at hr
  split_ifs at hr with h
  push Not at h
  simp at hr
  subst hr
  exact ⟨by show _ = m.shape; rw [h]; exact hf.lengths, by show _ = m.shape.length; rw [h]; exact hf.states, by show _ = m.shape.length; rw [h]; exact hf.origins⟩

end Postpic.Fields
