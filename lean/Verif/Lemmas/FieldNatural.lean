import Verif.Lemmas.Autocut
import Verif.Lemmas.FieldAssign
import Verif.Spec.FieldNatural

/-!
# Lemmas about selecting and rearranging
-/

set_option linter.unusedSectionVars false

set_option autoImplicit false

namespace Postpic.Fields

open Postpic Postpic.Axes Postpic.Spec

variable {K V W : Type} [_root_.Field K] [LinearOrder K]

theorem map_bind' {α β γ : Type} (x : Res α) (g : α → Res β) (u : β → γ) :
    Except.map u (x >>= g) = x >>= fun a => Except.map u (g a) := by
  cases x <;> rfl

theorem bind_map' {α β γ : Type} (x : Res α) (u : α → β) (g : β → Res γ) :
    (Except.map u x >>= g) = x >>= fun a => g (u a) := by
  cases x <;> rfl

/-- A function of the values, with other names and units. -/
def mapped (l m : String → String) (u : V → W) (f : Fields.Field K V) : Fields.Field K W :=
  ⟨l f.name, m f.unit, ⟨f.matrix.shape, fun idx => u (f.matrix.at' idx)⟩, f.axes, f.ats, f.tao⟩

theorem getitem_mapped (spl : Splines K) (l m : String → String) (u : V → W) (f : Fields.Field K V) (key : List (Key K)) :
    (mapped l m u f).getitem spl key = Except.map (mapped l m u) (f.getitem spl key) := by
  unfold Field.getitem
  change (if (key.length : ℤ) ≠ f.dims then _ else _) = Except.map _ (if (key.length : ℤ) ≠ f.dims then _ else _)
  by_cases h : (key.length : ℤ) ≠ f.dims
  · simp only [if_pos h]; rfl
  · simp only [if_neg h, map_bind']
    rfl

theorem squeeze_mapped (spl : Splines K) (l m : String → String) (u : V → W) (f : Fields.Field K V) :
    (mapped l m u f).squeeze spl = Except.map (mapped l m u) (f.squeeze spl) := by
  unfold Field.squeeze
  simp only [map_bind']
  change ((mapped l m u f).getitem spl (f.axes.map fun ax => if ax.len = 1 then (Key.int 0 : Key K) else .slice ⟨none, none, false⟩) >>= _) = _
  rw [getitem_mapped, bind_map']
  congr 1
  funext r
  change (if r.axes.map Axis.len ≠ r.shape then _ else _) = Except.map _ (if r.axes.map Axis.len ≠ r.shape then _ else _)
  by_cases h : r.axes.map Axis.len ≠ r.shape
  · simp only [if_pos h]; rfl
  · simp only [if_neg h]; rfl

theorem atleastNd_mapped (spl : Splines K) (l m : String → String) (u : V → W) (f : Fields.Field K V) (n : ℤ) :
    (mapped l m u f).atleastNd spl n = Except.map (mapped l m u) (f.atleastNd spl n) := by
  unfold Field.atleastNd
  change (if f.dims ≥ n then _ else _) = Except.map _ (if f.dims ≥ n then _ else _)
  by_cases h : f.dims ≥ n
  · simp only [if_pos h]; rfl
  · simp only [if_neg h, map_bind']
    rfl

theorem transpose_mapped (l m : String → String) (u : V → W) (f : Fields.Field K V) (axes : Option (List ℤ)) :
    (mapped l m u f).transpose axes = Except.map (mapped l m u) (f.transpose axes) := by
  unfold Field.transpose
  change (if ((axes.getD ((List.range f.dims.toNat).map Int.ofNat).reverse).length : ℤ) ≠ f.dims then _ else _) =
    Except.map _ (if ((axes.getD ((List.range f.dims.toNat).map Int.ofNat).reverse).length : ℤ) ≠ f.dims then _ else _)
  by_cases h : ((axes.getD ((List.range f.dims.toNat).map Int.ofNat).reverse).length : ℤ) ≠ f.dims
  · simp only [if_pos h]; rfl
  · simp only [if_neg h, map_bind']
    rfl

theorem swapaxes_mapped (l m : String → String) (u : V → W) (f : Fields.Field K V) (a b : ℤ) :
    (mapped l m u f).swapaxes a b = Except.map (mapped l m u) (f.swapaxes a b) := by
  unfold Field.swapaxes
  simp only [map_bind', ← transpose_mapped]
  rfl

theorem flip_mapped (spl : Splines K) (l m : String → String) (u : V → W) (f : Fields.Field K V) (axis : ℤ) :
    (mapped l m u f).flip spl axis = Except.map (mapped l m u) (f.flip spl axis) := by
  unfold Field.flip
  simp only [map_bind']
  rfl

theorem rot90_mapped (spl : Splines K) (l m : String → String) (u : V → W) (f : Fields.Field K V) (k a b : ℤ) :
    (mapped l m u f).rot90 spl k a b = Except.map (mapped l m u) (f.rot90 spl k a b) := by
  unfold Field.rot90
  change (if a = b then _ else _) = Except.map _ (if a = b then _ else _)
  by_cases h1 : a = b
  · simp only [if_pos h1]; rfl
  simp only [if_neg h1]
  change (if a ≥ (f.shape.length : ℤ) ∨ a < -(f.shape.length : ℤ) ∨ b ≥ (f.shape.length : ℤ) ∨ b < -(f.shape.length : ℤ) then _ else _) =
    Except.map _ (if a ≥ (f.shape.length : ℤ) ∨ a < -(f.shape.length : ℤ) ∨ b ≥ (f.shape.length : ℤ) ∨ b < -(f.shape.length : ℤ) then _
      else _)
  by_cases h2 : a ≥ (f.shape.length : ℤ) ∨ a < -(f.shape.length : ℤ) ∨ b ≥ (f.shape.length : ℤ) ∨ b < -(f.shape.length : ℤ)
  · simp only [if_pos h2]; rfl
  simp only [if_neg h2]
  by_cases h3 : k % 4 = 0
  · simp only [if_pos h3]; rfl
  simp only [if_neg h3]
  by_cases h4 : k % 4 = 2
  · simp only [if_pos h4, map_bind', flip_mapped, bind_map', bind_assoc, bind_pure]
  simp only [if_neg h4, map_bind']
  change (pyGet ((List.range f.shape.length).map Int.ofNat) a >>= _) = _
  congr 1; funext la
  change (pyGet ((List.range f.shape.length).map Int.ofNat) b >>= _) = _
  congr 1; funext lb
  change (pySet ((List.range f.shape.length).map Int.ofNat) a lb >>= _) = _
  congr 1; funext l
  congr 1; funext l'
  by_cases h5 : k % 4 = 1
  · simp only [if_pos h5, map_bind', flip_mapped, transpose_mapped, bind_map']
  · simp only [if_neg h5, map_bind', flip_mapped, transpose_mapped, bind_map']

theorem apply_mapped (spl : Splines K) (l m : String → String) (u : V → W) (f : Fields.Field K V) (op : Rearrangement K) :
    Rearrangement.apply spl (mapped l m u f) op = Except.map (mapped l m u) (Rearrangement.apply spl f op) := by
  cases op with
  | getitem key => exact getitem_mapped spl l m u f key
  | squeeze => exact squeeze_mapped spl l m u f
  | atleastNd n => exact atleastNd_mapped spl l m u f n
  | transpose axes => exact transpose_mapped l m u f axes
  | swapaxes a b => exact swapaxes_mapped l m u f a b
  | flip axis => exact flip_mapped spl l m u f axis
  | rot90 k a b => exact rot90_mapped spl l m u f k a b

theorem rearrange_mapped (spl : Splines K) (l m : String → String) (u : V → W) (ops : List (Rearrangement K)) (f : Fields.Field K V) :
    rearrange spl ops (mapped l m u f) = Except.map (mapped l m u) (rearrange spl ops f) := by
  induction ops generalizing f with
  | nil => rfl
  | cons op ops ih =>
    unfold rearrange
    rw [apply_mapped, bind_map', map_bind']
    congr 1
    funext r
    exact ih r

/-! ### Only samples of the field are used -/

/-- All samples of `f` are at places of an array of this shape. -/
def Places (s : List ℕ) (f : Fields.Field K (List ℕ)) : Prop :=
  ∀ idx, InBounds f.matrix.shape idx → InBounds s (f.matrix.at' idx)

/-- The positions exist. -/
def Pick.Within (n : ℕ) : Pick → Prop
  | .one k => k < n
  | .many l => ∀ k ∈ l, k < n

theorem pickAxis_within {spl : Splines K} {ax : Axis K} {k : NKey} {p : Option (Axis K) × Pick} (h : pickAxis spl ax k = .ok p) :
    Pick.Within ax.len p.2 := by
  cases k with
  | int i =>
    unfold pickAxis at h
    cases hk : pyIdx ax.len i with
    | none => simp [hk] at h
    | some k =>
      simp [hk] at h
      subst h
      exact pyIdx_lt hk
  | slice s =>
    obtain ⟨a, _, h⟩ := bind_ok h
    simp [pure, Except.pure] at h
    subst h
    intro k hk
    have hm : k ∈ List.range ax.len := by
      unfold Slice.apply sliceFwd sliceBwd at hk
      split_ifs at hk
      · exact List.mem_of_mem_take (List.mem_of_mem_drop (List.mem_reverse.1 hk))
      · exact List.mem_of_mem_take (List.mem_of_mem_drop hk)
    simpa using hm

theorem pickIdx_inBounds : ∀ (ps : List Pick) (s idx : List ℕ), List.Forall₂ Pick.Within s ps → InBounds (pickShape ps) idx →
    InBounds s (pickIdx ps idx)
  | [], s, idx, h, _ => by cases h; exact ⟨rfl, by simp [pickIdx]⟩
  | .one k :: ps, s, idx, h, hi => by
    cases h with
    | cons h1 h2 => exact inb_cons.2 ⟨h1, pickIdx_inBounds ps _ idx h2 hi⟩
  | .many l :: ps, s, idx, h, hi => by
    cases h with
    | cons h1 h2 =>
      cases idx with
      | nil => simp [pickShape, InBounds] at hi
      | cons i idx =>
        obtain ⟨hi1, hi2⟩ := inb_cons.1 hi
        refine inb_cons.2 ⟨?_, pickIdx_inBounds ps _ idx h2 hi2⟩
        rw [List.headD_cons, List.getD_eq_getElem _ _ hi1]
        exact h1 _ (List.getElem_mem hi1)

theorem getitem_places {spl : Splines K} {s : List ℕ} {f r : Fields.Field K (List ℕ)} {key : List (Key K)} (hf : f.Ok) (hp : Places s f)
    (hr : f.getitem spl key = .ok r) : Places s r := by
  unfold Field.getitem at hr
  split_ifs at hr with hd
  · cases hr
  obtain ⟨keys, hk, hr⟩ := bind_ok hr
  obtain ⟨picks, hpk, hr⟩ := bind_ok hr
  obtain ⟨_, hc, hr⟩ := bind_ok hr
  simp [pure, Except.pure] at hr
  subst hr
  intro idx hidx
  refine hp _ (pickIdx_inBounds _ _ _ ?_ hidx)
  have hk := mapM_ok hk
  have h1 := mapM_ok hpk
  have l1 := hk.length_eq
  have l3 := dims_eq (not_not.1 hd)
  have l4 := ok_axes_length hf
  rw [List.length_zip] at l1
  have hs : f.matrix.shape = (f.axes.zip keys).map fun p => p.1.len := by
    have := hf.lengths
    rw [show (fun p : Axis K × NKey => p.1.len) = Axis.len ∘ Prod.fst from rfl, ← List.map_map, List.map_fst_zip (by omega)]
    exact this.symm
  rw [hs, List.forall₂_map_left_iff, List.forall₂_map_right_iff]
  exact h1.imp fun _ _ h => pickAxis_within h

theorem squeeze_places {spl : Splines K} {s : List ℕ} {f r : Fields.Field K (List ℕ)} (hf : f.Ok) (hp : Places s f)
    (hr : f.squeeze spl = .ok r) : Places s r := by
  obtain ⟨x, hx, hr⟩ := bind_ok hr
  split_ifs at hr
  · simp [throw, throwThe, MonadExceptOf.throw, bind, Except.bind] at hr
  · simp [pure, Except.pure] at hr
    subst hr
    exact getitem_places hf hp hx

theorem atleastNd_places {spl : Splines K} {s : List ℕ} {f r : Fields.Field K (List ℕ)} {n : ℤ} (hp : Places s f)
    (hr : f.atleastNd spl n = .ok r) : Places s r := by
  unfold Field.atleastNd at hr
  split_ifs at hr with hd
  · simp at hr; subst hr; exact hp
  · obtain ⟨ax, hax, hr⟩ := bind_ok hr
    simp [pure, Except.pure] at hr
    subst hr
    intro idx hidx
    refine hp _ ⟨?_, ?_⟩
    · have := hidx.1
      simp only [List.length_append] at this
      simp only [List.length_take, Field.shape] at this ⊢
      omega
    · intro d i n hi hn
      have hd : d < f.matrix.shape.length := (List.getElem?_eq_some_iff.1 hn).1
      refine hidx.2 d i n ?_ ?_
      · rw [List.getElem?_take] at hi
        split_ifs at hi
        exact hi
      · show (f.matrix.shape ++ _)[d]? = _
        rw [List.getElem?_append_left hd]
        exact hn

theorem transpose_places {s : List ℕ} {f r : Fields.Field K (List ℕ)} {axes : Option (List ℤ)} (hf : f.Ok) (hp : Places s f)
    (hr : f.transpose axes = .ok r) : Places s r := by
  obtain ⟨p, h1, h2, h3, -, -, h5⟩ := transpose_eq hf hr
  rw [h5]
  intro idx hidx
  have hl : idx.length = p.length := by simpa [Arr.transpose] using hidx.1
  refine hp _ ⟨by simp, ?_⟩
  intro d i n hi hn
  have hd : d < f.matrix.shape.length := (List.getElem?_eq_some_iff.1 hn).1
  have hdp : d ∈ p := by
    have : p.toFinset = Finset.range p.length := by
      apply Finset.eq_of_subset_of_card_le
      · intro k hk
        rw [Finset.mem_range, h2]
        exact h3 k (by simpa using hk)
      · rw [List.toFinset_card_of_nodup h1, Finset.card_range]
    have h : d ∈ p.toFinset := by
      rw [this, Finset.mem_range, h2]
      exact hd
    simpa using h
  have hlt := List.idxOf_lt_length_iff.2 hdp
  rw [List.getElem?_map, List.getElem?_range hd] at hi
  simp only [Option.map_some, Option.some.injEq] at hi
  refine hidx.2 (p.idxOf d) i n ?_ ?_
  · rw [← hi, List.getD_eq_getElem?_getD, List.getElem?_eq_getElem (by omega)]
    rfl
  · show (p.map _)[_]? = _
    rw [List.getElem?_map, List.getElem?_eq_getElem hlt, List.getElem_idxOf]
    simp [List.getD_eq_getElem?_getD, hn]

theorem flip_places {spl : Splines K} {s : List ℕ} {f r : Fields.Field K (List ℕ)} {axis : ℤ} (hp : Places s f)
    (hr : f.flip spl axis = .ok r) : Places s r := by
  obtain ⟨k, k', ax, ax', h1, h2, h3, h4, rfl⟩ := flip_eq hr
  intro idx hidx
  refine hp _ ⟨by rw [List.length_modify]; exact hidx.1, ?_⟩
  intro d i n hi hn
  rw [List.getElem?_modify] at hi
  cases hj : idx[d]? with
  | none => simp [hj] at hi
  | some j =>
    have hlt := hidx.2 d j n hj hn
    rw [hj] at hi
    simp only [Option.map_eq_map, Option.map_some, Option.some.injEq] at hi
    by_cases hk : k = d
    · subst hk
      simp only [if_true] at hi
      rw [List.getD_eq_getElem?_getD, hn, Option.getD_some] at hi
      omega
    · rw [if_neg hk] at hi
      subst hi
      exact hlt

theorem rot90_places {spl : Splines K} {s : List ℕ} {f r : Fields.Field K (List ℕ)} {k a b : ℤ} (hf : f.Ok) (hp : Places s f)
    (hr : f.rot90 spl k a b = .ok r) : Places s r := by
  unfold Field.rot90 at hr
  simp only [bind, Except.bind, pure, Except.pure, throw, throwThe, MonadExceptOf.throw] at hr
  split_ifs at hr
  · simp at hr; subst hr; exact hp
  · split at hr
    · simp at hr
    · rename_i x hx
      exact flip_places (flip_places hp hx) hr
  · split at hr
    · simp at hr
    split at hr
    · simp at hr
    split at hr
    · simp at hr
    split at hr
    · simp at hr
    split at hr
    · simp at hr
    · rename_i x hx
      exact transpose_places (flip_Ok hf hx) (flip_places hp hx) hr
  · split at hr
    · simp at hr
    split at hr
    · simp at hr
    split at hr
    · simp at hr
    split at hr
    · simp at hr
    split at hr
    · simp at hr
    · rename_i x hx
      exact flip_places (transpose_places hf hp hx) hr

theorem apply_Ok {spl : Splines K} {f r : Fields.Field K V} {op : Rearrangement K} (hf : f.Ok)
    (hr : Rearrangement.apply spl f op = .ok r) : r.Ok := by
  cases op with
  | getitem key => exact getitem_Ok hf hr
  | squeeze => exact squeeze_Ok hf hr
  | atleastNd n => exact atleastNd_Ok hf hr
  | transpose axes => exact transpose_Ok hf hr
  | swapaxes a b => exact swapaxes_Ok hf hr
  | flip axis => exact flip_Ok hf hr
  | rot90 k a b => exact rot90_Ok hf hr

theorem apply_places {spl : Splines K} {s : List ℕ} {f r : Fields.Field K (List ℕ)} {op : Rearrangement K} (hf : f.Ok) (hp : Places s f)
    (hr : Rearrangement.apply spl f op = .ok r) : Places s r := by
  cases op with
  | getitem key => exact getitem_places hf hp hr
  | squeeze => exact squeeze_places hf hp hr
  | atleastNd n => exact atleastNd_places hp hr
  | transpose axes => exact transpose_places hf hp hr
  | swapaxes a b =>
    obtain ⟨l, _, hr⟩ := bind_ok hr
    obtain ⟨l', _, hr⟩ := bind_ok hr
    exact transpose_places hf hp hr
  | flip axis => exact flip_places hp hr
  | rot90 k a b => exact rot90_places hf hp hr

theorem rearrange_Ok {spl : Splines K} {f r : Fields.Field K V} {ops : List (Rearrangement K)} (hf : f.Ok)
    (hr : rearrange spl ops f = .ok r) : r.Ok := by
  induction ops generalizing f with
  | nil => simp [rearrange] at hr; subst hr; exact hf
  | cons op ops ih =>
    obtain ⟨x, hx, hr⟩ := bind_ok hr
    exact ih (apply_Ok hf hx) hr

theorem rearrange_places {spl : Splines K} {s : List ℕ} {f r : Fields.Field K (List ℕ)} {ops : List (Rearrangement K)} (hf : f.Ok)
    (hp : Places s f) (hr : rearrange spl ops f = .ok r) : Places s r := by
  induction ops generalizing f with
  | nil => simp [rearrange] at hr; subst hr; exact hp
  | cons op ops ih =>
    obtain ⟨x, hx, hr⟩ := bind_ok hr
    exact ih (apply_Ok hf hx) (apply_places hf hp hx) hr

/-- The same axes, with the places themselves as values. -/
def placesOf (f : Fields.Field K V) : Fields.Field K (List ℕ) := ⟨"", "", ⟨f.matrix.shape, fun idx => idx⟩, f.axes, f.ats, f.tao⟩

theorem eq_mapped_places (f : Fields.Field K V) : f = mapped (fun _ => f.name) (fun _ => f.unit) f.matrix.at' (placesOf f) := rfl

theorem same_metas : ∀ l : List (Meta K), binaryMetaRev l l = .ok l
  | [] => rfl
  | a :: l => by
    unfold binaryMetaRev
    rw [same_metas l, if_pos rfl]
    by_cases h : a.2.2.isNone
    · rw [if_pos h]; rfl
    · rw [if_neg h]; rfl

theorem bshapeRev_self : ∀ s : List ℕ, bshapeRev s s = some s
  | [] => rfl
  | a :: s => by
    unfold bshapeRev
    rw [bshapeRev_self s]
    simp

/-- The operation on two fields with the same axes. -/
theorem binary_same (g : V → V → V) {f h : Fields.Field K V}
    (hf : AxesDescribe f.shape (f.axes.map Axis.len) f.ats.length f.tao.length) (hh : SameAxes f h) (h3 : f.shape.length ≤ 3) :
    ∃ r, f.binary g h = .ok r ∧ r.name = f.name ∧ r.unit = f.unit ∧ SameAxes f r ∧
      ∀ idx, InBounds f.shape idx → r.matrix.at' idx = g (f.matrix.at' idx) (h.matrix.at' idx) := by
  have hm : h.metas = f.metas := by unfold Field.metas; rw [hh.axes, hh.ats, hh.tao]
  have hl : f.axes.length = f.shape.length := ok_axes_length hf
  have l1 := hf.states
  have l2 := hf.origins
  have m1 : f.metas.map (·.1) = f.axes := by
    unfold Field.metas
    exact List.map_fst_zip (by rw [List.length_zip]; omega)
  have m2' : f.metas.map (·.2) = List.zip f.ats f.tao := by
    unfold Field.metas
    exact List.map_snd_zip (by rw [List.length_zip]; omega)
  have m2 : f.metas.map (·.2.1) = f.ats := by
    rw [show (fun p : Meta K => p.2.1) = Prod.fst ∘ Prod.snd from rfl, ← List.map_map, m2', List.map_fst_zip (by omega)]
  have m3 : f.metas.map (·.2.2) = f.tao := by
    rw [show (fun p : Meta K => p.2.2) = Prod.snd ∘ Prod.snd from rfl, ← List.map_map, m2', List.map_snd_zip (by omega)]
  have hb : bshape f.matrix.shape h.matrix.shape = some f.matrix.shape := by
    rw [hh.shape]
    unfold bshape
    rw [bshapeRev_self]
    simp
  have hmk := mkField_of_eq (m := ⟨f.matrix.shape, fun idx => g (f.matrix.at' (bindex f.matrix.shape idx)) (h.matrix.at' (bindex h.matrix.shape idx))⟩)
    (name := f.name) (unit := f.unit) (ats := f.ats) (tao := f.tao) hf.lengths h3
  refine ⟨⟨f.name, f.unit, ⟨f.matrix.shape, fun idx => g (f.matrix.at' (bindex f.matrix.shape idx)) (h.matrix.at' (bindex h.matrix.shape idx))⟩,
    f.axes, f.ats, f.tao⟩, ?_, rfl, rfl, ⟨rfl, rfl, rfl, rfl⟩, fun idx hi => ?_⟩
  rotate_left
  · show g _ _ = _
    rw [hh.shape, bindex_self (s := f.matrix.shape) hi]
  · unfold Field.binary
    rw [hm, same_metas]
    unfold Arr.binary
    rw [hb]
    change mkField _ _ _ (f.metas.reverse.reverse.map _) _ _ = _
    rw [List.reverse_reverse, m1, m2, m3]
    exact hmk

end Postpic.Fields
