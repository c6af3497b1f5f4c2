import Verif.Lemmas.Series
import Verif.Spec.FieldKeys

/-!
# Lemmas about names of fields and species
-/

set_option autoImplicit false

namespace Postpic.Readers

open Postpic Postpic.Fields Postpic.Spec

theorem h5Letter_table {c : AxisKey} {l : String} (h : (c, l) ∈ componentTable) : h5Letter c = .ok l := by
  simp only [componentTable, List.mem_cons, Prod.mk.injEq, List.not_mem_nil, or_false] at h
  rcases h with h | h | h | h | h | h | h | h | h | h | h | h | h | h | h <;> obtain ⟨rfl, rfl⟩ := h <;> rfl

theorem componentLetter_table {c : AxisKey} {l : String} (h : (c, l) ∈ componentTable) (hl : l ∈ ["x", "y", "z"]) :
    componentLetter c = .ok l := by
  simp only [componentTable, List.mem_cons, Prod.mk.injEq, List.not_mem_nil, or_false] at h
  rcases h with h | h | h | h | h | h | h | h | h | h | h | h | h | h | h <;> obtain ⟨rfl, rfl⟩ := h <;> first | rfl | (revert hl; decide)

theorem stripPrefix_append (pre r : List Char) : stripPrefix pre (pre ++ r) = some r := by
  unfold stripPrefix
  rw [if_pos (List.isPrefixOf_iff_prefix.2 (List.prefix_append pre r)), List.drop_left]

theorem stripPrefix_none {pre key : List Char} (h : ¬ pre <+: key) : stripPrefix pre key = none := by
  unfold stripPrefix
  rw [if_neg fun hp => h (List.isPrefixOf_iff_prefix.1 hp)]

theorem takeWhile_run {p : Char → Bool} {a rest : List Char} (ha : ∀ c ∈ a, p c = true) (hr : ∀ c ∈ rest.head?, p c = false) :
    (a ++ rest).takeWhile p = a ∧ (a ++ rest).dropWhile p = rest := by
  induction a with
  | nil =>
    cases rest with
    | nil => simp
    | cons c cs =>
      have := hr c (by simp)
      simp [this]
  | cons c cs ih =>
    obtain ⟨h1, h2⟩ := ih fun x hx => ha x (by simp [hx])
    have hc := ha c (by simp)
    simp [hc, h1, h2]

theorem nameChar_of {word : Char → Bool} {c : Char} (h : word c = true ∨ c = '-') : nameChar word c = true := by
  unfold nameChar
  rcases h with h | rfl
  · simp [h]
  · simp

theorem speciesName_proper {word : Char → Bool} (hw : word '/' = false) {s : List Char} (h : ProperName word s) :
    speciesName word s = some s := by
  have hslash : nameChar word '/' = false := by simp [nameChar, hw]
  obtain ⟨a, ha, hac, rfl | ⟨b, hb, hbc, rfl⟩⟩ := h
  · obtain ⟨h1, h2⟩ := takeWhile_run (p := nameChar word) (a := s) (rest := []) (fun c hc => nameChar_of (hac c hc)) (by simp)
    rw [List.append_nil] at h1 h2
    unfold speciesName
    rw [h1, h2, if_neg ha]
    simp [subName]
  · obtain ⟨h1, h2⟩ := takeWhile_run (p := nameChar word) (a := a) (rest := '/' :: b) (fun c hc => nameChar_of (hac c hc))
      (by intro c hc; simp only [List.head?_cons, Option.mem_def, Option.some.injEq] at hc; rw [← hc]; exact hslash)
    obtain ⟨h3, h4⟩ := takeWhile_run (p := nameChar word) (a := b) (rest := []) (fun c hc => nameChar_of (hbc c hc)) (by simp)
    rw [List.append_nil] at h3
    unfold speciesName
    rw [h1, h2, if_neg ha]
    simp only [subName, h3, if_neg hb]

theorem speciesMatch_key {word : Char → Bool} (hw : word '/' = false) {s key : List Char} (hs : ProperName word s)
    (h : ParticleKey word s key) : speciesMatch word key = some s := by
  obtain ⟨attrib, hne, hc, rfl⟩ := h
  obtain ⟨h1, h2⟩ := takeWhile_run (p := word) (a := attrib) (rest := '/' :: s) hc
    (by intro c hc; simp only [List.head?_cons, Option.mem_def, Option.some.injEq] at hc; rw [← hc]; exact hw)
  unfold speciesMatch
  rw [stripPrefix_append]
  simp only [Option.bind_eq_bind, Option.bind_some, h1, h2, if_neg hne]
  exact speciesName_proper hw hs

theorem derivedMatch_plain {word : Char → Bool} {key : List Char} (h : PlainDerived word key) : derivedMatch word key = some key := by
  obtain ⟨r, rfl, hr⟩ := h
  unfold derivedMatch
  rw [stripPrefix_append, Option.map_some]
  obtain ⟨h1, -⟩ := takeWhile_run (p := fun c => word c || c == '/' || c == ' ') (a := r) (rest := [])
    (by
      intro c hc
      rcases hr c hc with h | h | h
      · simp [h]
      · simp [h]
      · simp [h])
    (by simp)
  rw [List.append_nil] at h1
  rw [h1]

theorem filterMap_eq_filter {α : Type} {f : α → Option α} {p : α → Bool} : ∀ {l : List α},
    (∀ a ∈ l, f a = if p a then some a else none) → l.filterMap f = l.filter p
  | [], _ => rfl
  | a :: l, h => by
    have ih := filterMap_eq_filter (f := f) (p := p) (l := l) fun x hx => h x (by simp [hx])
    rw [List.filterMap_cons, List.filter_cons, h a (by simp), ih]
    cases p a <;> simp

end Postpic.Readers
