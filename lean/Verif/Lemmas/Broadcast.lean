import Mathlib.Data.List.GetD
import Verif.Lemmas.Field

/-!
# Lemmas about broadcasting
-/

set_option autoImplicit false
set_option linter.unusedSectionVars false

namespace Postpic.Fields

open Postpic Postpic.Axes Postpic.Spec

theorem bshapeRev_iff (s t r : List ℕ) : bshapeRev s t = some r ↔
    r.length = max s.length t.length ∧
    ∀ k, (r.getD k 1 = s.getD k 1 ∧ (t.getD k 1 = s.getD k 1 ∨ t.getD k 1 = 1)) ∨
       (r.getD k 1 = t.getD k 1 ∧ s.getD k 1 = 1) := by
  induction s generalizing t r with
  | nil =>
    simp only [bshapeRev, Option.some.injEq, List.length_nil, List.getD_nil]
    constructor
    · rintro rfl
      simp
    · rintro ⟨h1, h2⟩
      apply List.ext_getElem
      · simpa using h1.symm
      · intro i hi1 hi2
        have := h2 i
        simp only [List.getD_eq_getElem _ _ hi1, List.getD_eq_getElem _ _ hi2] at this
        omega
  | cons a s ih =>
    cases t with
    | nil =>
      simp only [bshapeRev, Option.some.injEq, List.length_nil, List.getD_nil]
      constructor
      · rintro rfl
        simp
      · rintro ⟨h1, h2⟩
        apply List.ext_getElem
        · simpa using h1.symm
        · intro i hi1 hi2
          have := h2 i
          rw [List.getD_eq_getElem _ _ hi1, List.getD_eq_getElem _ _ hi2] at this
          omega
    | cons b t =>
      simp only [bshapeRev]
      cases r with
      | nil =>
        constructor
        · intro h
          split at h
          · simp at h
          · split_ifs at h <;> simp at h
        · rintro ⟨h, -⟩
          simp at h
      | cons c r =>
        constructor
        · intro h
          split at h
          · simp at h
          · rename_i r' hr'
            have := (ih t r').1 hr'
            split_ifs at h with h1 h2 h3
            all_goals
              simp only [Option.some.injEq, List.cons.injEq] at h
              obtain ⟨rfl, rfl⟩ := h
              refine ⟨by simp [this.1], ?_⟩
              intro k
              cases k with
              | zero => simp; omega
              | succ k => simpa using this.2 k
        · rintro ⟨h1, h2⟩
          have h3 : bshapeRev s t = some r := (ih t r).2
            ⟨by simpa using h1, fun k => by simpa using h2 (k + 1)⟩
          rw [h3]
          have h4 := h2 0
          simp only [List.getD_cons_zero] at h4
          simp only
          rcases h4 with ⟨rfl, h4 | h4⟩ | ⟨rfl, h4⟩
          · rw [if_pos h4.symm]
          · subst h4
            split_ifs <;> simp_all
          · subst h4
            split_ifs <;> simp_all

theorem bshape_iff (s t r : List ℕ) : bshape s t = some r ↔ Broadcast s t r := by
  unfold bshape Broadcast alignedLength
  have := bshapeRev_iff s.reverse t.reverse r.reverse
  simp only [List.length_reverse] at this
  rw [← this, Option.map_eq_some_iff]
  constructor
  · rintro ⟨a, h, rfl⟩
    simpa using h
  · intro h
    exact ⟨_, h, by simp⟩

theorem bindex_spec {shape idx : List ℕ} (h : shape.length ≤ idx.length) :
    OperandIndex shape idx (bindex shape idx) := by
  unfold OperandIndex bindex
  refine ⟨by simp; omega, ?_⟩
  intro k n i hn hi
  have hk := (List.getElem?_eq_some_iff.1 hn).1
  rw [List.length_reverse] at hk
  rw [List.getElem?_reverse (by simp; omega)]
  rw [List.getElem?_reverse hk] at hn
  rw [List.getElem?_reverse (by omega)] at hi
  simp only [List.length_zipWith, List.length_drop]
  rw [List.getElem?_zipWith]
  have e1 : min shape.length (idx.length - (idx.length - shape.length)) - 1 - k =
      shape.length - 1 - k := by omega
  rw [e1, hn, List.getElem?_drop]
  have e2 : idx.length - shape.length + (shape.length - 1 - k) = idx.length - 1 - k := by omega
  rw [e2, hi]

variable {K V : Type} [_root_.Field K] [LinearOrder K]

theorem metas_lens {f : Field K V} (hf : f.Ok) : f.metas.map (fun m => m.1.len) = f.shape := by
  have h1 := ok_axes_length hf
  have h2 := hf.states
  have h3 := hf.origins
  unfold Field.metas
  have : (f.axes.zip (f.ats.zip f.tao)).map (fun m => m.1.len) =
      ((f.axes.zip (f.ats.zip f.tao)).map Prod.fst).map Axis.len := by simp
  rw [this, List.map_fst_zip (by rw [List.length_zip]; omega), hf.lengths]

/-- The entry of the result for one dimension. -/
theorem binaryMetaRev_spec {a b : List (Meta K)} :
    (∀ r, binaryMetaRev a b = .ok r → bshapeRev (a.map fun m => m.1.len) (b.map fun m => m.1.len)
        = some (r.map fun m => m.1.len)) ∧
    ((∃ r, binaryMetaRev a b = .ok r) ↔
      ∃ s, bshapeRev (a.map fun m => m.1.len) (b.map fun m => m.1.len) = some s) := by
  induction a generalizing b with
  | nil => simp [binaryMetaRev, bshapeRev]
  | cons x a ih =>
    cases b with
    | nil => simp [binaryMetaRev, bshapeRev]
    | cons y b =>
      obtain ⟨ih1, ih2⟩ := ih (b := b)
      simp only [binaryMetaRev, List.map_cons, bshapeRev]
      constructor
      · intro r h
        split_ifs at h with h1 h2 h3 h4
        all_goals
          obtain ⟨z, hz, h⟩ := bind_ok h
          obtain ⟨s, hs, h⟩ := bind_ok h
          cases h
          have := ih1 s hs
          rw [this]
          cases hz <;> simp_all
      · cases hs : bshapeRev (a.map fun m => m.1.len) (b.map fun m => m.1.len) with
        | none =>
          rw [hs] at ih2
          constructor
          · rintro ⟨r, h⟩
            exfalso
            split_ifs at h
            all_goals
              obtain ⟨z, hz, h⟩ := bind_ok h
              obtain ⟨s, hs', h⟩ := bind_ok h
              have := ih2.1 ⟨s, hs'⟩
              simp at this
          · rintro ⟨s, h⟩
            simp at h
        | some s =>
          rw [hs] at ih2
          obtain ⟨r, hr⟩ := ih2.2 ⟨s, rfl⟩
          rw [hr]
          simp only [bind, Except.bind, pure, Except.pure, throw, throwThe, MonadExceptOf.throw]
          split_ifs <;> simp

theorem binaryMetaRev_axis {a b r : List (Meta K)} (h : binaryMetaRev a b = .ok r) (k : ℕ) :
    (r[k]?.map fun m => m.1) = match a[k]?, b[k]? with
      | some x, some y => if x.1.len = y.1.len ∨ y.1.len = 1 then some x.1 else some y.1
      | some x, none => some x.1
      | none, some y => some y.1
      | none, none => none := by
  induction a generalizing b r k with
  | nil =>
    simp [binaryMetaRev] at h
    subst h
    simp only [List.getElem?_nil]
    cases b[k]? <;> rfl
  | cons x a ih =>
    cases b with
    | nil =>
      simp [binaryMetaRev] at h
      subst h
      simp only [List.getElem?_nil]
      cases (x :: a)[k]? <;> rfl
    | cons y b =>
      simp only [binaryMetaRev] at h
      have key : ∃ z s, binaryMetaRev a b = .ok s ∧ r = z :: s ∧
          z.1 = if x.1.len = y.1.len ∨ y.1.len = 1 then x.1 else y.1 := by
        split_ifs at h with h1 h2 h3 h4
        all_goals
          obtain ⟨z, hz, h⟩ := bind_ok h
          obtain ⟨s, hs, h⟩ := bind_ok h
          cases h
          cases hz <;> refine ⟨_, s, hs, rfl, ?_⟩ <;> simp_all
        all_goals
          intro hc
          exact absurd hc.symm h1
      obtain ⟨z, s, hs, rfl, hz⟩ := key
      cases k with
      | zero => simp [hz]; split_ifs <;> rfl
      | succ k => simpa using ih hs k

/-- The states and origins of the result for one dimension. -/
theorem binaryMetaRev_state {a b r : List (Meta K)} (h : binaryMetaRev a b = .ok r) (k : ℕ) :
    (r[k]?.map fun m => m.2) = match a[k]?, b[k]? with
      | some x, some y =>
        if x.1.len = y.1.len then (if y.2.2 = none then some x.2 else some y.2)
        else if x.1.len = 1 then some y.2 else some x.2
      | some x, none => some x.2
      | none, some y => some y.2
      | none, none => none := by
  induction a generalizing b r k with
  | nil =>
    simp [binaryMetaRev] at h
    subst h
    simp only [List.getElem?_nil]
    cases b[k]? <;> rfl
  | cons x a ih =>
    cases b with
    | nil =>
      simp [binaryMetaRev] at h
      subst h
      simp only [List.getElem?_nil]
      cases (x :: a)[k]? <;> rfl
    | cons y b =>
      simp only [binaryMetaRev] at h
      have key : ∃ z s, binaryMetaRev a b = .ok s ∧ r = z :: s ∧
          z.2 = if x.1.len = y.1.len then (if y.2.2 = none then x.2 else y.2)
            else if x.1.len = 1 then y.2 else x.2 := by
        split_ifs at h with h1 h2 h3 h4
        all_goals
          obtain ⟨z, hz, h⟩ := bind_ok h
          obtain ⟨s, hs, h⟩ := bind_ok h
          cases h
          cases hz <;> refine ⟨_, s, hs, rfl, ?_⟩ <;> simp_all
      obtain ⟨z, s, hs, rfl, hz⟩ := key
      cases k with
      | zero => simp [hz]; split_ifs <;> rfl
      | succ k => simpa using ih hs k

end Postpic.Fields
