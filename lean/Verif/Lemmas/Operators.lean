import Verif.Spec.Operators
import Verif.Lemmas.Broadcast
import Verif.Lemmas.FieldReduce

/-!
# Operators: lemmas
-/

set_option autoImplicit false
set_option linter.unusedSectionVars false

namespace Postpic.Fields

open Postpic Postpic.Axes Postpic.Spec

variable {K V : Type} [_root_.Field K] [LinearOrder K]

theorem checkOptAxes_some (shape : List ℕ) (i : ℕ) (axs : List (Axis K)) :
    checkOptAxes shape i (axs.map some) = (checkAxes shape i axs).map fun _ => axs := by
  induction axs generalizing i with
  | nil => rfl
  | cons ax axs ih =>
    simp only [List.map_cons, checkOptAxes, checkAxes, ih]
    cases checkAxisObj shape i ax with
    | error e => rfl
    | ok u =>
      simp only [bind, Except.bind]
      cases checkAxes shape (i + 1) axs <;> rfl

theorem mkResult_some (self : Field K V) (m : Arr V) (axs : List (Axis K)) (ats : List (Option Bool))
    (tao : List (Option K)) :
    mkResult self m ⟨axs.map some, ats, tao⟩ = mkField m self.name self.unit axs ats tao := by
  unfold mkResult mkField
  simp only [List.length_map, checkOptAxes_some]
  split_ifs
  · rfl
  · cases checkAxes m.shape 0 axs <;> rfl

theorem checkOptAxes_ok {shape : List ℕ} {i : ℕ} {l : List (Option (Axis K))} {r : List (Axis K)}
    (h : checkOptAxes shape i l = .ok r) : l = r.map some := by
  induction l generalizing i r with
  | nil => simp only [checkOptAxes, Except.ok.injEq] at h; subst h; rfl
  | cons a l ih =>
    cases a with
    | none => simp [checkOptAxes] at h
    | some ax =>
      simp only [checkOptAxes] at h
      obtain ⟨_, _, h⟩ := bind_ok h
      obtain ⟨r', h1, h⟩ := bind_ok h
      cases h
      simp [ih h1]

theorem mkResult_ok {self : Field K V} {m : Arr V} {l : Lists K} {r : Field K V} (h : mkResult self m l = .ok r) :
    r = ⟨self.name, self.unit, m, r.axes, l.ats, l.tao⟩ ∧ l.axes = r.axes.map some ∧
      r.axes.map Axis.len = m.shape := by
  have h0 := h
  unfold mkResult at h
  split_ifs at h
  obtain ⟨axs, h1, h⟩ := bind_ok h
  cases h
  have h2 := checkOptAxes_ok h1
  refine ⟨rfl, h2, ?_⟩
  have : l = ⟨axs.map some, l.ats, l.tao⟩ := by rw [← h2]
  rw [this, mkResult_some] at h0
  exact (mkField_ok h0).2

theorem optMetaRev_some (a b : List (Meta K)) :
    optMetaRev (a.map fun m => (some m.1, m.2.1, m.2.2)) (b.map fun m => (some m.1, m.2.1, m.2.2)) =
      (binaryMetaRev a b).map fun r => r.map fun m => (some m.1, m.2.1, m.2.2) := by
  induction a generalizing b with
  | nil => simp [optMetaRev, binaryMetaRev, Except.map]
  | cons x a ih =>
    cases b with
    | nil => simp [optMetaRev, binaryMetaRev, Except.map]
    | cons y b =>
      simp only [List.map_cons, optMetaRev, binaryMetaRev, ih]
      by_cases h1 : x.1.len = y.1.len
      · by_cases h2 : y.2.2.isNone = true
        · simp only [h1, h2, if_true]
          cases binaryMetaRev a b <;> rfl
        · simp only [h1, if_true, if_neg h2]
          cases binaryMetaRev a b <;> rfl
      · simp only [if_neg h1]
        by_cases h2 : x.1.len = 1
        · simp only [if_pos h2]
          cases binaryMetaRev a b <;> rfl
        · simp only [if_neg h2]
          by_cases h3 : y.1.len = 1
          · simp only [if_pos h3]
            cases binaryMetaRev a b <;> rfl
          · simp only [if_neg h3]
            rfl

/-- A ufunc of two fields is the arithmetic of fields modelled before. -/
theorem ufuncCall_fields (g : V → V → V) (f h : Field K V) :
    ufuncCall g (.field f) (.field h) = f.binary g h := by
  unfold ufuncCall
  simp only [Operand.handled, Bool.not_true, Bool.or_self, Bool.false_eq_true, if_false, Field.binaryLists,
    Field.optMetas]
  rw [← List.map_reverse, ← List.map_reverse, optMetaRev_some]
  unfold Field.binary
  cases binaryMetaRev f.metas.reverse h.metas.reverse with
  | error e => rfl
  | ok m =>
    simp only [Except.map, bind, Except.bind, pure, Except.pure, ufuncData, Operand.data]
    cases Arr.binary g f.matrix h.matrix with
    | error e => rfl
    | ok a =>
      simp only [List.map_reverse, List.map_map]
      have : (List.map ((fun x : OptMeta K => x.1) ∘ fun m : Meta K => (some m.1, m.2.1, m.2.2)) m).reverse =
          ((m.map (·.1)).reverse).map some := by
        rw [List.map_reverse, List.map_map]; rfl
      rw [this, mkResult_some]
      simp [Function.comp_def]

theorem optMetaRev_nones {l : List (OptMeta K)} (h : ∀ x ∈ l, x.1 ≠ none) (n : ℕ) :
    optMetaRev l (List.replicate n (none, none, none)) =
      .ok (l ++ List.replicate (n - l.length) (none, none, none)) := by
  induction l generalizing n with
  | nil => simp [optMetaRev]
  | cons x l ih =>
    cases n with
    | zero => simp [optMetaRev]
    | succ n =>
      obtain ⟨x1, x2⟩ := x
      cases x1 with
      | none => exact absurd rfl (h (none, x2) (by simp))
      | some ax =>
        simp only [List.replicate_succ, optMetaRev, ih (fun y hy => h y (by simp [hy]))]
        simp [bind, Except.bind, pure, Except.pure]

theorem binaryLists_array {f : Field K V} (hf : f.Ok) (a : Arr V) :
    f.binaryLists (.array a) = .ok (if f.axes.length < a.shape.length then
      ⟨List.replicate (a.shape.length - f.axes.length) none ++ f.axes.map some,
        List.replicate (a.shape.length - f.axes.length) none ++ f.ats,
        List.replicate (a.shape.length - f.axes.length) none ++ f.tao⟩ else ⟨f.axes.map some, f.ats, f.tao⟩) := by
  have h1 := ok_axes_length hf
  have h2 := hf.states
  have h3 := hf.origins
  have e1 : f.metas.map (fun m => some m.1) = f.axes.map some := by
    have : f.metas.map (fun m => some m.1) = (f.metas.map Prod.fst).map some := by simp
    rw [this]
    unfold Field.metas
    rw [List.map_fst_zip (by rw [List.length_zip]; omega)]
  have e : f.metas.map (·.2) = f.ats.zip f.tao := by
    unfold Field.metas
    rw [List.map_snd_zip (by rw [List.length_zip]; omega)]
  have e2 : f.metas.map (fun m => m.2.1) = f.ats := by
    have : f.metas.map (fun m => m.2.1) = (f.metas.map (·.2)).map Prod.fst := by simp
    rw [this, e, List.map_fst_zip (by omega)]
  have e3 : f.metas.map (fun m => m.2.2) = f.tao := by
    have : f.metas.map (fun m => m.2.2) = (f.metas.map (·.2)).map Prod.snd := by simp
    rw [this, e, List.map_snd_zip (by omega)]
  have hlen : f.optMetas.length = f.axes.length := by
    have := congrArg List.length e1
    simpa [Field.optMetas] using this
  simp only [Field.binaryLists, List.reverse_replicate]
  rw [optMetaRev_nones]
  · simp only [bind, Except.bind, pure, Except.pure, List.reverse_append, List.reverse_replicate,
      List.reverse_reverse, List.map_append, List.map_replicate, List.length_reverse, hlen]
    have f1 : f.optMetas.map (·.1) = f.axes.map some := by rw [← e1]; simp [Field.optMetas]
    have f2 : f.optMetas.map (·.2.1) = f.ats := by conv_rhs => rw [← e2]
                                                   simp [Field.optMetas]
    have f3 : f.optMetas.map (·.2.2) = f.tao := by conv_rhs => rw [← e3]
                                                   simp [Field.optMetas]
    rw [f1, f2, f3]
    split_ifs with h
    · rfl
    · have : a.shape.length - f.axes.length = 0 := by omega
      simp [this]
  · intro x hx
    simp only [Field.optMetas, List.mem_reverse, List.mem_map] at hx
    obtain ⟨m, _, rfl⟩ := hx
    simp

theorem mkResult_none (self : Field K V) (m : Arr V) (l : List (Option (Axis K))) (n : ℕ) (hn : 0 < n)
    (ats : List (Option Bool)) (tao : List (Option K)) (h : m.shape.length ≤ n + l.length) :
    mkResult self m ⟨List.replicate n none ++ l, ats, tao⟩ = .error .typeError := by
  obtain ⟨k, rfl⟩ : ∃ k, n = k + 1 := ⟨n - 1, by omega⟩
  unfold mkResult
  rw [if_neg (by simp; omega)]
  simp [List.replicate_succ, checkOptAxes, bind, Except.bind]

theorem binary_data {g : V → V → V} {a b c : Arr V} (h : Arr.binary g a b = .ok c) :
    Broadcast a.shape b.shape c.shape ∧
    ∀ idx, c.at' idx = g (a.at' (bindex a.shape idx)) (b.at' (bindex b.shape idx)) := by
  unfold Arr.binary at h
  split at h
  · rename_i s hs
    cases h
    exact ⟨(bshape_iff _ _ _).1 hs, fun _ => rfl⟩
  · cases h

theorem binary_of {g : V → V → V} {a b : Arr V} {s : List ℕ} (h : Broadcast a.shape b.shape s) :
    Arr.binary g a b = .ok ⟨s, fun idx => g (a.at' (bindex a.shape idx)) (b.at' (bindex b.shape idx))⟩ := by
  unfold Arr.binary
  rw [(bshape_iff _ _ _).2 h]

theorem broadcast_nil_right (s : List ℕ) : Broadcast s [] s :=
  ⟨by simp, fun k => Or.inl ⟨rfl, Or.inr (by simp [alignedLength])⟩⟩

theorem broadcast_comm {s t r : List ℕ} (h : Broadcast s t r) : Broadcast t s r := by
  refine ⟨by rw [h.1, max_comm], fun k => ?_⟩
  rcases h.2 k with ⟨h1, h2 | h2⟩ | ⟨h1, h2⟩
  · exact Or.inl ⟨by rw [h1, h2], Or.inl h2.symm⟩
  · exact Or.inr ⟨h1, h2⟩
  · exact Or.inl ⟨h1, Or.inr h2⟩

theorem data_shape {x : Operand K V} {a : Arr V} (h : x.data = some a) : HasShape x a.shape := by
  cases x with
  | field f => cases h; exact .field f
  | array b => cases h; exact .array _
  | number c => cases h; exact .number c
  | other => cases h

theorem data_entry {x : Operand K V} {a : Arr V} (h : x.data = some a) {idx : List ℕ}
    (hi : a.shape.length ≤ idx.length) : EntryAt x idx (a.at' (bindex a.shape idx)) := by
  cases x with
  | field f => cases h; exact .field f _ _ (bindex_spec hi)
  | array b => cases h; exact .array _ _ _ (bindex_spec hi)
  | number c => cases h; exact .number c _
  | other => cases h

theorem ufuncData_ok {g : V → V → V} {x y : Operand K V} {m : Arr V} (h : ufuncData g x y = .ok m) :
    ∃ a b, x.data = some a ∧ y.data = some b ∧ Arr.binary g a b = .ok m := by
  unfold ufuncData at h
  split at h
  · rename_i a b ha hb
    exact ⟨a, b, ha, hb, h⟩
  · cases h

theorem handled_field (f : Field K V) : (Operand.field f).handled = true := rfl

theorem ufuncData_of {g : V → V → V} {x y : Operand K V} {a b : Arr V} (ha : x.data = some a) (hb : y.data = some b) :
    ufuncData g x y = Arr.binary g a b := by
  unfold ufuncData
  rw [ha, hb]

theorem ufuncCall_ok {g : V → V → V} {x y : Operand K V} {r : Field K V} (h : ufuncCall g x y = .ok r) :
    EntryByEntry g x y r ∧ r.axes.map Axis.len = r.shape := by
  have key : ∃ f l m, FirstField x y f ∧ ufuncData g x y = .ok m ∧ mkResult f m l = .ok r := by
    unfold ufuncCall at h
    split_ifs at h
    split at h
    · rename_i f z
      obtain ⟨l, _, h⟩ := bind_ok h
      obtain ⟨m, h1, h⟩ := bind_ok h
      exact ⟨f, l, m, .left _ _, h1, h⟩
    · rename_i f hz _
      obtain ⟨l, _, h⟩ := bind_ok h
      obtain ⟨m, h1, h⟩ := bind_ok h
      exact ⟨f, l, m, .right _ _ hz, h1, h⟩
    · cases h
  obtain ⟨f, l, m, hf, hm, hr⟩ := key
  obtain ⟨a, b, ha, hb, hm⟩ := ufuncData_ok hm
  obtain ⟨h1, h2⟩ := binary_data hm
  obtain ⟨h3, -, h4⟩ := mkResult_ok hr
  have e : r.matrix = m := by rw [h3]
  have hs : r.shape = m.shape := by unfold Field.shape; rw [e]
  refine ⟨⟨⟨_, _, data_shape ha, data_shape hb, by rw [e]; exact h1⟩, ?_, ⟨f, hf, by rw [h3], by rw [h3]⟩⟩,
    by rw [h4, hs]⟩
  intro idx hidx
  have hl : idx.length = m.shape.length := by rw [hidx.1, e]
  have hb1 := h1.1
  exact ⟨_, _, data_entry ha (by omega), data_entry hb (by omega), by rw [e]; exact h2 idx⟩

end Postpic.Fields
