import Verif.Lemmas.Broadcast
import Verif.Props.FieldAxes

/-!
# Broadcasting
-/

set_option autoImplicit false

namespace Postpic.Props

open Postpic Postpic.Axes Postpic.Fields Postpic.Spec

section
variable {K V : Type} [_root_.Field K] [LinearOrder K]

/-- C23: arithmetic of two fields with at most three dimensions is accepted exactly if numpy
broadcasts the shapes. (Partial: see `broadcast_four_dimensions_violated`.) -/
theorem broadcast_accepts_partial (g : V → V → V) (f h : Field K V)
    (hf : AxesDescribe f.shape (f.axes.map Axis.len) f.ats.length f.tao.length)
    (hh : AxesDescribe h.shape (h.axes.map Axis.len) h.ats.length h.tao.length)
    (hf3 : f.shape.length ≤ 3) (hh3 : h.shape.length ≤ 3) :
    (∃ r, f.binary g h = .ok r) ↔ ∃ s, Broadcast f.shape h.shape s := by
  have key := binaryMetaRev_spec (a := f.metas.reverse) (b := h.metas.reverse)
  simp only [List.map_reverse, metas_lens hf, metas_lens hh] at key
  constructor
  · rintro ⟨r, hr⟩
    obtain ⟨m, _, hr⟩ := bind_ok hr
    obtain ⟨a, ha, hr⟩ := bind_ok hr
    unfold Arr.binary at ha
    split at ha
    · rename_i s hs
      exact ⟨s, (bshape_iff _ _ _).1 hs⟩
    · cases ha
  · rintro ⟨s, hs⟩
    have hs' := (bshape_iff _ _ _).2 hs
    unfold bshape at hs'
    rw [Option.map_eq_some_iff] at hs'
    obtain ⟨s', hs', rfl⟩ := hs'
    obtain ⟨m, hm⟩ := key.2.2 ⟨_, hs'⟩
    have hlen := key.1 m hm
    rw [hs'] at hlen
    simp at hlen
    have hb : Arr.binary g f.matrix h.matrix = .ok ⟨s'.reverse, fun idx =>
        g (f.matrix.at' (bindex f.matrix.shape idx)) (h.matrix.at' (bindex h.matrix.shape idx))⟩ := by
      unfold Arr.binary
      have : bshape f.matrix.shape h.matrix.shape = some s'.reverse := (bshape_iff _ _ _).2 hs
      rw [this]
    have h3 : s'.length ≤ 3 := by
      have := hs.1
      simp only [List.length_reverse] at this
      omega
    unfold Field.binary
    rw [hm, hb]
    refine ⟨_, mkField_of_eq ?_ (by simpa using h3)⟩
    simp [hlen, Function.comp_def]

/-- The axis of the result along a dimension counted from the last one: the axis of the first
operand, unless that operand is stretched along this dimension. -/
theorem broadcast_result (g : V → V → V) (f h r : Field K V)
    (hf : AxesDescribe f.shape (f.axes.map Axis.len) f.ats.length f.tao.length)
    (hh : AxesDescribe h.shape (h.axes.map Axis.len) h.ats.length h.tao.length)
    (hr : f.binary g h = .ok r) :
    Broadcast f.shape h.shape r.shape ∧
    (∀ idx, InBounds r.shape idx → ∃ i j, OperandIndex f.shape idx i ∧ OperandIndex h.shape idx j ∧
      r.matrix.at' idx = g (f.matrix.at' i) (h.matrix.at' j)) ∧
    (∀ k ax, r.axes.reverse[k]? = some ax →
      (f.axes.reverse[k]? = some ax ∨ h.axes.reverse[k]? = some ax) ∧
      (f.axes.reverse[k]? ≠ some ax → alignedLength f.shape k = 1)) := by
  obtain ⟨m, hm, hr⟩ := bind_ok hr
  obtain ⟨a, ha, hr⟩ := bind_ok hr
  obtain ⟨rfl, -⟩ := mkField_ok hr
  unfold Arr.binary at ha
  split at ha
  case h_2 => cases ha
  rename_i s hs
  cases ha
  have hB := (bshape_iff _ _ _).1 hs
  refine ⟨hB, ?_, ?_⟩
  · intro idx hidx
    have h1 : idx.length = s.length := hidx.1
    have h2 := hB.1
    exact ⟨_, _, bindex_spec (by unfold Field.shape; omega), bindex_spec (by unfold Field.shape; omega), rfl⟩
  · intro k ax hax
    simp only [List.map_reverse, List.reverse_reverse] at hax
    have key := binaryMetaRev_axis hm k
    rw [List.getElem?_map] at hax
    rw [hax] at key
    have em : ∀ (q : Field K V), AxesDescribe q.shape (q.axes.map Axis.len) q.ats.length q.tao.length →
        q.axes.reverse[k]? = (q.metas.reverse[k]?).map (fun m => m.1) := by
      intro q hq
      rw [← List.getElem?_map, List.map_reverse]
      unfold Field.metas
      rw [List.map_fst_zip]
      have h1 := ok_axes_length hq
      have h2 := hq.states
      have h3 := hq.origins
      rw [List.length_zip]
      omega
    have el : ∀ x, f.metas.reverse[k]? = some x → alignedLength f.shape k = x.1.len := by
      intro x hx
      unfold alignedLength
      have h1 : f.shape.reverse[k]? = some x.1.len := by
        rw [← metas_lens hf, ← List.map_reverse, List.getElem?_map, hx]
        rfl
      rw [List.getD_eq_getElem?_getD, h1]
      rfl
    have el' : ∀ x, h.metas.reverse[k]? = some x → alignedLength h.shape k = x.1.len := by
      intro x hx
      unfold alignedLength
      have h1 : h.shape.reverse[k]? = some x.1.len := by
        rw [← metas_lens hh, ← List.map_reverse, List.getElem?_map, hx]
        rfl
      rw [List.getD_eq_getElem?_getD, h1]
      rfl
    have en : f.metas.reverse[k]? = none → alignedLength f.shape k = 1 := by
      intro hx
      unfold alignedLength
      rw [List.getD_eq_getElem?_getD]
      have : f.shape.reverse[k]? = none := by
        rw [← metas_lens hf, ← List.map_reverse, List.getElem?_map, hx]
        rfl
      rw [this]
      rfl
    rw [em f hf, em h hh]
    have hbk := hB.2 k
    cases hfk : f.metas.reverse[k]? with
    | none =>
      rw [hfk] at key
      cases hhk : h.metas.reverse[k]? with
      | none => rw [hhk] at key; simp at key
      | some y =>
        rw [hhk] at key
        simp at key
        subst key
        exact ⟨Or.inr rfl, fun _ => en hfk⟩
    | some x =>
      rw [hfk] at key
      cases hhk : h.metas.reverse[k]? with
      | none =>
        rw [hhk] at key
        simp at key
        subst key
        exact ⟨Or.inl rfl, fun hc => absurd rfl hc⟩
      | some y =>
        rw [hhk] at key
        simp only at key
        split_ifs at key with hc
        · simp at key
          subst key
          exact ⟨Or.inl rfl, fun hc => absurd rfl hc⟩
        · simp at key
          subst key
          refine ⟨Or.inr rfl, fun _ => ?_⟩
          have e1 := el x hfk
          have e2 := el' y hhk
          unfold Field.shape at e1 e2
          push Not at hc
          rcases hbk with ⟨_, h1 | h1⟩ | ⟨_, h1⟩
          · rw [e1, e2] at h1; exact absurd h1.symm hc.1
          · rw [e2] at h1; exact absurd h1 hc.2
          · exact h1

/-- C23: along a dimension, counted from the last one, an operand which is stretched or lacks the
dimension does not matter for domain and remembered origin. If both operands have it with the same
length, the domain is kept if they agree, and an origin which one of them remembers is not lost. -/
theorem broadcast_states (g : V → V → V) (f h r : Field K V)
    (hf : AxesDescribe f.shape (f.axes.map Axis.len) f.ats.length f.tao.length)
    (hh : AxesDescribe h.shape (h.axes.map Axis.len) h.ats.length h.tao.length)
    (hr : f.binary g h = .ok r) (k : ℕ) :
    ((alignedLength f.shape k = 1 ∧ alignedLength h.shape k ≠ 1 ∨ f.shape.length ≤ k) →
      r.ats.reverse[k]? = h.ats.reverse[k]? ∧ r.tao.reverse[k]? = h.tao.reverse[k]?) ∧
    ((alignedLength h.shape k = 1 ∧ alignedLength f.shape k ≠ 1 ∨ h.shape.length ≤ k) →
      r.ats.reverse[k]? = f.ats.reverse[k]? ∧ r.tao.reverse[k]? = f.tao.reverse[k]?) ∧
    (k < f.shape.length → k < h.shape.length → alignedLength f.shape k = alignedLength h.shape k →
      (f.ats.reverse[k]? = h.ats.reverse[k]? → r.ats.reverse[k]? = f.ats.reverse[k]?) ∧
      (∀ o, h.tao.reverse[k]? = some (some o) → r.tao.reverse[k]? = some (some o)) ∧
      (h.tao.reverse[k]? = some none → r.ats.reverse[k]? = f.ats.reverse[k]? ∧
        r.tao.reverse[k]? = f.tao.reverse[k]?)) := by
  obtain ⟨m, hm, hr⟩ := bind_ok hr
  obtain ⟨a, ha, hr⟩ := bind_ok hr
  obtain ⟨rfl, -⟩ := mkField_ok hr
  have key := binaryMetaRev_state hm k
  have lens : ∀ (q : Field K V), AxesDescribe q.shape (q.axes.map Axis.len) q.ats.length q.tao.length →
      (q.ats.zip q.tao).length ≤ q.axes.length ∧ q.ats.length = q.tao.length ∧
        q.axes.length = q.shape.length ∧ q.ats.length = q.shape.length := by
    intro q hq
    have h1 := ok_axes_length hq
    have h2 := hq.states
    have h3 := hq.origins
    rw [List.length_zip]
    omega
  have e2 : ∀ (q : Field K V), AxesDescribe q.shape (q.axes.map Axis.len) q.ats.length q.tao.length →
      q.ats.reverse[k]? = (q.metas.reverse[k]?).map (fun m => m.2.1) ∧
      q.tao.reverse[k]? = (q.metas.reverse[k]?).map (fun m => m.2.2) := by
    intro q hq
    obtain ⟨l1, l2, l3, l4⟩ := lens q hq
    have e : q.metas.map (·.2) = q.ats.zip q.tao := by
      unfold Field.metas
      rw [List.map_snd_zip l1]
    have e' : q.metas.map (fun m => m.2.1) = (q.metas.map (·.2)).map (·.1) := by simp
    have e'' : q.metas.map (fun m => m.2.2) = (q.metas.map (·.2)).map (·.2) := by simp
    constructor
    · rw [← List.getElem?_map, List.map_reverse, e', e, List.map_fst_zip (by omega)]
    · rw [← List.getElem?_map, List.map_reverse, e'', e, List.map_snd_zip (by omega)]
  have e1 : ∀ (q : Field K V), AxesDescribe q.shape (q.axes.map Axis.len) q.ats.length q.tao.length →
      q.shape.reverse[k]? = (q.metas.reverse[k]?).map (fun m => m.1.len) := by
    intro q hq
    rw [← metas_lens hq, ← List.map_reverse, List.getElem?_map]
  have er1 : (m.reverse.map (·.2.1)).reverse[k]? = (m[k]?.map (·.2)).map (·.1) := by
    rw [← List.map_reverse, List.reverse_reverse, List.getElem?_map, Option.map_map]; rfl
  have er2 : (m.reverse.map (·.2.2)).reverse[k]? = (m[k]?.map (·.2)).map (·.2) := by
    rw [← List.map_reverse, List.reverse_reverse, List.getElem?_map, Option.map_map]; rfl
  have lf : f.shape.length ≤ k ↔ f.shape.reverse[k]? = none := by
    rw [List.getElem?_eq_none_iff, List.length_reverse]
  have lh : h.shape.length ≤ k ↔ h.shape.reverse[k]? = none := by
    rw [List.getElem?_eq_none_iff, List.length_reverse]
  rw [← not_le, ← not_le]
  simp only [er1, er2, key, (e2 f hf).1, (e2 f hf).2, (e2 h hh).1, (e2 h hh).2, lf, lh, alignedLength,
    List.getD_eq_getElem?_getD, e1 f hf, e1 h hh]
  cases f.metas.reverse[k]? with
  | none => cases h.metas.reverse[k]? <;> simp
  | some x =>
    cases h.metas.reverse[k]? with
    | none => simp
    | some y =>
      simp only [Option.map_some, Option.getD_some, Option.some.injEq, reduceCtorEq, or_false,
        not_false_eq_true, forall_true_left]
      refine ⟨fun ⟨h1, h2⟩ => ?_, fun ⟨h1, h2⟩ => ?_, fun h1 => ⟨fun h2 => ?_, fun o h2 => ?_, fun h2 => ?_⟩⟩
      · rw [if_neg (by omega), if_pos h1]; simp
      · rw [if_neg (by omega), if_neg h2]; simp
      · rw [if_pos h1]; split_ifs <;> simp [h2]
      · rw [if_pos h1, if_neg (by simp [h2])]; simp [h2]
      · rw [if_pos h1, if_pos h2]; simp

/-- C23: arithmetic with numbers keeps shape and axes. -/
theorem number_result (g : V → V → V) (f : Field K V) (c : V)
    (hf : AxesDescribe f.shape (f.axes.map Axis.len) f.ats.length f.tao.length)
    (hf3 : f.shape.length ≤ 3) :
    ∃ r, f.binaryNumber g c = .ok r ∧ r.shape = f.shape ∧ r.axes = f.axes ∧ r.ats = f.ats ∧
      r.tao = f.tao ∧ ∀ idx, r.matrix.at' idx = g (f.matrix.at' idx) c :=
  ⟨_, mkField_of_eq hf.lengths hf3, rfl, rfl, rfl, rfl, fun _ => rfl⟩

/-- C23: arithmetic with an array is accepted, with numpy's result and the axes of the field, if
the array does not stretch the field. Partial: arrays which do are refused, although numpy accepts
them. -/
theorem array_result_partial (g : V → V → V) (f : Field K V) (b : Arr V)
    (hf : AxesDescribe f.shape (f.axes.map Axis.len) f.ats.length f.tao.length)
    (hf3 : f.shape.length ≤ 3) (hb : Broadcast f.shape b.shape f.shape) :
    ∃ r, f.binaryArray g b = .ok r ∧ r.shape = f.shape ∧ r.axes = f.axes ∧ r.ats = f.ats ∧
      r.tao = f.tao ∧ ∀ idx, InBounds f.shape idx → ∃ i j, OperandIndex f.shape idx i ∧
        OperandIndex b.shape idx j ∧ r.matrix.at' idx = g (f.matrix.at' i) (b.at' j) := by
  have h1 : bshape f.matrix.shape b.shape = some f.shape := (bshape_iff _ _ _).2 hb
  have hl := hb.1
  have hax := ok_axes_length hf
  refine ⟨⟨f.name, f.unit, ⟨f.shape, fun idx =>
    g (f.matrix.at' (bindex f.shape idx)) (b.at' (bindex b.shape idx))⟩, f.axes, f.ats, f.tao⟩,
    ?_, rfl, rfl, rfl, rfl, ?_⟩
  · unfold Field.binaryArray Arr.binary
    rw [h1]
    simp only [bind, Except.bind]
    rw [if_neg (by omega)]
    exact mkField_of_eq hf.lengths hf3
  · intro idx hidx
    have h2 : idx.length = f.shape.length := hidx.1
    exact ⟨_, _, bindex_spec (by omega), bindex_spec (by omega), rfl⟩

end

/-! ### Examples -/

/-- A field with 1 times 3 points. -/
def field13 : Field ℚ ℚ :=
  ⟨"g", "", ⟨[1, 3], fun idx => idx.getD 1 0⟩,
    [uniformAxis 0 1 1, uniformAxis 0 6 3], [some false, some false], [none, none]⟩

/-- A field with 4 points. -/
def field4 : Field ℚ ℚ := ⟨"h", "", ⟨[4], fun idx => idx.getD 0 0⟩, [uniformAxis 0 4 4], [some false], [none]⟩

example : (field13.binary (· + ·) field43).map fieldLens = .ok ([4, 3], [4, 3], 2, 2) := by
  decide +kernel

/-- The origin remembered by the second operand is kept. -/
example : (field43.binary (· + ·) { field43 with tao := [some 1, none] }).map (fun r => (r.ats, r.tao)) =
    .ok ([some false, some false], [some 1, none]) := by
  decide +kernel

example : ∃ s, Broadcast field13.shape field43.shape s := ⟨[4, 3], (bshape_iff _ _ _).1 (by decide)⟩

example : ¬ ∃ s, Broadcast field4.shape field43.shape s := by
  rintro ⟨s, hs⟩
  have := (bshape_iff _ _ _).2 hs
  have e : bshape field4.shape field43.shape = none := by decide
  rw [e] at this
  cases this

example : Broadcast field43.shape [3] field43.shape := (bshape_iff _ _ _).1 (by decide)

/-! ### Violations -/

/-- C23 fails for arrays with more dimensions than the field: numpy accepts them. -/
theorem broadcast_array_dimensions_violated :
    Broadcast field4.shape [3, 4] [3, 4] ∧
      (field4.binaryArray (· + ·) ⟨[3, 4], fun _ => 1⟩).map fieldLens = .error .typeError :=
  ⟨(bshape_iff _ _ _).1 (by decide), by decide +kernel⟩

/-- C23 fails for arrays which stretch an axis of the field. -/
theorem broadcast_array_stretch_violated :
    Broadcast field13.shape [4, 3] [4, 3] ∧
      (field13.binaryArray (· + ·) ⟨[4, 3], fun _ => 1⟩).map fieldLens = .error .valueError :=
  ⟨(bshape_iff _ _ _).1 (by decide), by decide +kernel⟩

/-- C23 fails for fields with four dimensions, made by `atleast_nd(4)`: adding a number raises a
KeyError. -/
theorem broadcast_four_dimensions_violated :
    (do let f ← field43.atleastNd midSplines 4
        return fieldLens f : Res _) = .ok ([4, 3, 1, 1], [4, 3, 1, 1], 4, 4) ∧
    (do let f ← field43.atleastNd midSplines 4
        let r ← f.binaryNumber (· + ·) 1
        return fieldLens r : Res _) = .error .keyError := by
  constructor <;> decide +kernel

end Postpic.Props
