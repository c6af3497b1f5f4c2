import Mathlib.Tactic.Ring
import Mathlib.Data.List.Basic
import Mathlib.Tactic.Linarith
import Mathlib.Tactic.SplitIfs
import Verif.Spec.Species

/-!
# Lemmas about species names
-/

set_option autoImplicit false
set_option linter.unusedSectionVars false

namespace Postpic.Species

open Postpic Postpic.Spec

/-! ### Heads of lists of matches -/

theorem head_flatMap {α β : Type} {l : List α} {f : α → List β} {x : α} {y : β}
    (hx : l.head? = some x) (hy : (f x).head? = some y) : (l.flatMap f).head? = some y := by
  cases l with
  | nil => simp at hx
  | cons a l =>
    simp only [List.head?_cons, Option.some.injEq] at hx
    subst hx
    rw [List.flatMap_cons, List.head?_append, hy]
    rfl

theorem head_map {α β : Type} {l : List α} {f : α → β} {x : α} (hx : l.head? = some x) :
    (l.map f).head? = some (f x) := by
  rw [List.head?_map, hx]
  rfl

/-! ### Repetition of a class of characters -/

theorem star_one_cons (p : Char → Bool) (c : Char) (s : List Char) (h : p c = true) :
    Rx.star (Rx.one p) (c :: s) =
      (Rx.star (Rx.one p) s).map (fun q => (c :: q.1, q.2)) ++ [([], c :: s)] := by
  simp [Rx.star, Rx.starN, Rx.one, h]

theorem star_one_stop (p : Char → Bool) (s : List Char) (h : NotFirst p s) :
    Rx.star (Rx.one p) s = [([], s)] := by
  cases s with
  | nil => rfl
  | cons c s =>
    have hc : p c = false := h c rfl
    simp [Rx.star, Rx.starN, Rx.one, hc]

theorem star_one_head (p : Char → Bool) (d t : List Char) (hd : ∀ c ∈ d, p c = true)
    (ht : NotFirst p t) : (Rx.star (Rx.one p) (d ++ t)).head? = some (d, t) := by
  induction d with
  | nil => rw [List.nil_append, star_one_stop p t ht]; rfl
  | cons c d ih =>
    rw [List.cons_append, star_one_cons p c _ (hd c (by simp)), List.head?_append,
      head_map (ih fun c hc => hd c (by simp [hc]))]
    rfl

/-- Matches split the text. -/
def Splits (a : Rx) (P : List Char → Prop) : Prop := ∀ s q, q ∈ a s → q.1 ++ q.2 = s ∧ P q.1

theorem splits_one (p : Char → Bool) : Splits (Rx.one p) (fun t => ∀ c ∈ t, p c = true) := by
  intro s q hq
  cases s with
  | nil => simp [Rx.one] at hq
  | cons c s =>
    simp only [Rx.one] at hq
    split_ifs at hq with h
    · simp only [List.mem_singleton] at hq
      subst hq
      simp [h]
    · simp at hq

theorem splits_lit (t : List Char) : Splits (Rx.lit t) (fun u => u = t) := by
  intro s q hq
  simp only [Rx.lit] at hq
  split_ifs at hq with h
  · simp only [List.mem_singleton] at hq
    subst hq
    obtain ⟨r, rfl⟩ := List.isPrefixOf_iff_prefix.1 h
    simp
  · simp at hq

theorem splits_seq {a b : Rx} {P Q R : List Char → Prop} (ha : Splits a P) (hb : Splits b Q)
    (h : ∀ x y, P x → Q y → R (x ++ y)) : Splits (Rx.seq a b) R := by
  intro s q hq
  simp only [Rx.seq, List.mem_flatMap, List.mem_map] at hq
  obtain ⟨x, hx, y, hy, rfl⟩ := hq
  obtain ⟨e1, h1⟩ := ha s x hx
  obtain ⟨e2, h2⟩ := hb _ y hy
  exact ⟨by rw [List.append_assoc, e2, e1], h _ _ h1 h2⟩

theorem splits_opt {a : Rx} {P : List Char → Prop} (ha : Splits a P) (h0 : P []) :
    Splits (Rx.opt a) P := by
  intro s q hq
  simp only [Rx.opt, List.mem_append, List.mem_singleton] at hq
  rcases hq with hq | rfl
  · exact ha s q hq
  · exact ⟨rfl, h0⟩

theorem splits_starN {a : Rx} {P Q : List Char → Prop} (ha : Splits a P) (h0 : Q [])
    (h : ∀ x y, P x → Q y → Q (x ++ y)) (n : ℕ) : Splits (Rx.starN a n) Q := by
  induction n with
  | zero =>
    intro s q hq
    simp only [Rx.starN, List.mem_singleton] at hq
    subst hq
    exact ⟨rfl, h0⟩
  | succ n ih =>
    intro s q hq
    simp only [Rx.starN, List.mem_append, List.mem_flatMap, List.mem_map, List.mem_singleton] at hq
    rcases hq with ⟨x, hx, y, hy, rfl⟩ | rfl
    · obtain ⟨e1, h1⟩ := ha s x hx
      obtain ⟨e2, h2⟩ := ih _ y hy
      exact ⟨by rw [List.append_assoc, e2, e1], h _ _ h1 h2⟩
    · exact ⟨rfl, h0⟩

theorem splits_star {a : Rx} {P Q : List Char → Prop} (ha : Splits a P) (h0 : Q [])
    (h : ∀ x y, P x → Q y → Q (x ++ y)) : Splits (Rx.star a) Q :=
  fun s => splits_starN ha h0 h s.length s

/-! ### The prefix -/

theorem praeWord_cons (c : Char) (s : List Char) (hc : c ≠ '\n') :
    praeWord (c :: s) = (praeWord s).map (fun q => (c :: q.1, q.2)) ++
      if c = '_' then [(['_'], s)] else [] := by
  unfold praeWord Rx.seq
  rw [star_one_cons _ _ _ (by simpa using hc), List.flatMap_append, List.flatMap_map, List.map_flatMap]
  congr 1
  · simp [List.map_map, Function.comp_def]
  simp only [List.flatMap_cons, List.flatMap_nil, Rx.lit, List.append_nil]
  by_cases h : c = '_'
  · subst h
    simp
  · rw [if_neg h, if_neg]
    · rfl
    · simp only [List.isPrefixOf_cons₂, Bool.and_eq_true, beq_iff_eq]
      exact fun h' => h h'.1.symm

theorem praeWord_stop (s : List Char) (h : '_' ∉ s.takeWhile (· != '\n')) : praeWord s = [] := by
  induction s with
  | nil => rfl
  | cons c s ih =>
    by_cases hc : c = '\n'
    · subst hc
      unfold praeWord Rx.seq
      rw [star_one_stop]
      · rfl
      · rintro d ⟨⟩
        rfl
    · rw [List.takeWhile_cons_of_pos (by simpa using hc), List.mem_cons, not_or] at h
      rw [praeWord_cons c s hc, ih h.2, if_neg (fun e => h.1 e.symm)]
      rfl

/-- The prefix ends with the last underscore of the first line. -/
theorem praeWord_head (a b : List Char) (ha : '\n' ∉ a) (hb : '_' ∉ b.takeWhile (· != '\n')) :
    (praeWord (a ++ '_' :: b)).head? = some (a ++ ['_'], b) := by
  induction a with
  | nil =>
    rw [List.nil_append, praeWord_cons _ _ (by decide), praeWord_stop b hb]
    rfl
  | cons c a ih =>
    simp only [List.mem_cons, not_or] at ha
    rw [List.cons_append, praeWord_cons _ _ (fun e => ha.1 e.symm), List.head?_append,
      head_map (ih ha.2)]
    rfl

theorem starN_stop (a : Rx) (n : ℕ) (s : List Char) (h : a s = []) : Rx.starN a n s = [([], s)] := by
  cases n with
  | zero => rfl
  | succ n => simp [Rx.starN, h]

theorem prae_head (a b : List Char) (ha : '\n' ∉ a) (hb : '_' ∉ b.takeWhile (· != '\n')) :
    (Rx.star praeWord (a ++ '_' :: b)).head? = some (a ++ ['_'], b) := by
  unfold Rx.star
  have : (a ++ '_' :: b).length = (a.length + b.length) + 1 := by simp; omega
  rw [this]
  simp only [Rx.starN]
  rw [List.head?_append]
  have := head_flatMap (f := fun p => (Rx.starN praeWord (a.length + b.length) p.2).map
    fun q => (p.1 ++ q.1, q.2)) (y := (a ++ ['_'], b)) (praeWord_head a b ha hb) (by
      simp only
      rw [starN_stop _ _ _ (praeWord_stop b hb)]
      simp)
  rw [this]
  rfl

theorem prae_none (b : List Char) (hb : '_' ∉ b.takeWhile (· != '\n')) :
    Rx.star praeWord b = [([], b)] := starN_stop _ _ _ (praeWord_stop b hb)

theorem prefix_split (ws : List (List Char)) (hne : ws ≠ []) (hw : ∀ w ∈ ws, '\n' ∉ w) :
    ∃ a, prefixText ws = a ++ ['_'] ∧ '\n' ∉ a := by
  induction ws with
  | nil => exact absurd rfl hne
  | cons w ws ih =>
    by_cases h : ws = []
    · subst h
      exact ⟨w, rfl, hw w (by simp)⟩
    · obtain ⟨a, h1, h2⟩ := ih h fun w hw' => hw w (by simp [hw'])
      refine ⟨w ++ '_' :: a, by simp [prefixText, h1], ?_⟩
      have := hw w (by simp)
      simp [this, h2]

theorem prae_head' (ws : List (List Char)) (b : List Char) (hw : ∀ w ∈ ws, '\n' ∉ w)
    (hb : '_' ∉ b.takeWhile (· != '\n')) :
    (Rx.star praeWord (prefixText ws ++ b)).head? = some (prefixText ws, b) := by
  by_cases h : ws = []
  · subst h
    rw [prefixText, List.nil_append, prae_none b hb]
    rfl
  · obtain ⟨a, h1, h2⟩ := prefix_split ws h hw
    rw [h1, List.append_assoc]
    exact prae_head a b h2 hb

theorem split_prefix (ws : List (List Char)) (hw : ∀ w ∈ ws, '_' ∉ w) :
    splitUnderscore (prefixText ws) = ws ++ [[]] := by
  induction ws with
  | nil => rfl
  | cons w ws ih =>
    have key : ∀ (w t : List Char), '_' ∉ w →
        splitUnderscore (w ++ '_' :: t) = w :: splitUnderscore t := by
      intro w t h
      induction w with
      | nil => simp [splitUnderscore]
      | cons c w ihw =>
        simp only [List.mem_cons, not_or] at h
        rw [List.cons_append, splitUnderscore, if_neg (fun e => h.1 e.symm), ihw h.2]
    rw [prefixText, key w _ (hw w (by simp)), ih fun w hw' => hw w (by simp [hw'])]
    rfl

/-- Every name is a prefix and a base name. -/
theorem decompose (s : List Char) : ∃ ws b, s = prefixText ws ++ b ∧
    (∀ w ∈ ws, '_' ∉ w ∧ '\n' ∉ w) ∧ '_' ∉ b.takeWhile (· != '\n') := by
  induction s with
  | nil => exact ⟨[], [], rfl, by simp, by simp⟩
  | cons c s ih =>
    obtain ⟨ws, b, h1, h2, h3⟩ := ih
    by_cases hn : c = '\n'
    · subst hn
      exact ⟨[], _, rfl, by simp, by simp⟩
    by_cases hc : c = '_'
    · subst hc
      refine ⟨[] :: ws, b, by simp [prefixText, h1], ?_, h3⟩
      intro w hw
      rcases List.mem_cons.1 hw with rfl | hw
      · simp
      · exact h2 w hw
    · cases ws with
      | nil =>
        refine ⟨[], c :: s, rfl, by simp, ?_⟩
        simp only [prefixText, List.nil_append] at h1
        rw [List.takeWhile_cons_of_pos (by simpa using hn), h1, List.mem_cons, not_or]
        exact ⟨fun e => hc e.symm, h3⟩
      | cons w ws =>
        refine ⟨(c :: w) :: ws, b, by simp [prefixText, h1], ?_, h3⟩
        intro v hv
        rcases List.mem_cons.1 hv with rfl | hv
        · have := h2 w (by simp)
          simp only [List.mem_cons, not_or]
          exact ⟨⟨fun e => hc e.symm, this.1⟩, fun e => hn e.symm, this.2⟩
        · exact h2 v (by simp [hv])

/-! ### The rest -/

/-- The text can be matched by the suffix. -/
def Tail (cl : Classes) (s : List Char) : Prop :=
  ∃ w e, s = w ++ e ∧ (∀ c ∈ w, cl.word c = true) ∧ (e = [] ∨ e = ['\n'])

theorem lazy_mem (p : Char → Bool) (w e : List Char) (hw : ∀ c ∈ w, p c = true) :
    (w, e) ∈ Rx.lazyStar p (w ++ e) := by
  induction w with
  | nil => cases e <;> simp [Rx.lazyStar]
  | cons c w ih =>
    rw [List.cons_append, Rx.lazyStar, if_pos (hw c (by simp))]
    refine List.mem_cons_of_mem _ (List.mem_map.2 ⟨(w, e), ih fun c hc => hw c (by simp [hc]), rfl⟩)

theorem lazy_splits (p : Char → Bool) :
    Splits (Rx.lazyStar p) (fun t => ∀ c ∈ t, p c = true) := by
  intro s
  induction s with
  | nil =>
    intro q hq
    simp only [Rx.lazyStar, List.mem_singleton] at hq
    subst hq
    simp
  | cons c s ih =>
    intro q hq
    rw [Rx.lazyStar, List.mem_cons] at hq
    rcases hq with rfl | hq
    · simp
    · split_ifs at hq with h
      · rw [List.mem_map] at hq
        obtain ⟨r, hr, rfl⟩ := hq
        obtain ⟨e, h1⟩ := ih r hr
        refine ⟨by simp [e], ?_⟩
        intro d hd
        rcases List.mem_cons.1 hd with rfl | hd
        · exact h
        · exact h1 d hd
      · simp at hq

theorem tail_iff (cl : Classes) (s : List Char) :
    Tail cl s ↔ (Rx.lazyStar cl.word s).filter (fun q => atEnd q.2) ≠ [] := by
  constructor
  · rintro ⟨w, e, rfl, hw, he⟩ hn
    rw [List.filter_eq_nil_iff] at hn
    refine hn _ (lazy_mem cl.word w e hw) ?_
    rcases he with rfl | rfl <;> rfl
  · intro h
    obtain ⟨q, hq⟩ := List.exists_mem_of_ne_nil _ h
    rw [List.mem_filter] at hq
    obtain ⟨e, h1⟩ := lazy_splits cl.word s q hq.1
    refine ⟨q.1, q.2, e.symm, h1, ?_⟩
    simpa [atEnd] using hq.2

theorem tail_suffix {cl : Classes} {a b : List Char} (h : Tail cl (a ++ b)) (ha : '\n' ∉ a) :
    Tail cl b := by
  obtain ⟨w, e, hs, hw, he⟩ := h
  rcases List.append_eq_append_iff.1 hs with ⟨u, h1, h2⟩ | ⟨u, h1, h2⟩
  · exact ⟨u, e, h2, fun c hc => hw c (by rw [h1]; simp [hc]), he⟩
  · rcases he with rfl | rfl
    · have : u = [] ∧ b = [] := by simpa using h2.symm
      exact ⟨[], [], by simp [this.2], by simp, Or.inl rfl⟩
    · cases u with
      | nil =>
        refine ⟨[], ['\n'], ?_, by simp, Or.inr rfl⟩
        simpa using h2.symm
      | cons d u =>
        simp only [List.cons_append, List.cons.injEq] at h2
        rw [h1] at ha
        exact absurd (by rw [← h2.1]; simp) ha

theorem tail_extend {cl : Classes} {a b : List Char} (h : Tail cl b)
    (ha : ∀ c ∈ a, cl.word c = true) : Tail cl (a ++ b) := by
  obtain ⟨w, e, rfl, hw, he⟩ := h
  refine ⟨a ++ w, e, by simp, ?_, he⟩
  intro c hc
  rcases List.mem_append.1 hc with h | h
  · exact ha c h
  · exact hw c h

theorem tail_end {cl : Classes} {a b : List Char} (h : Tail cl (a ++ b)) (hb : b ≠ []) : Tail cl b := by
  obtain ⟨w, e, hs, hw, he⟩ := h
  rcases List.append_eq_append_iff.1 hs with ⟨u, h1, h2⟩ | ⟨u, h1, h2⟩
  · exact ⟨u, e, h2, fun c hc => hw c (by rw [h1]; simp [hc]), he⟩
  · rcases he with rfl | rfl
    · have : u = [] ∧ b = [] := by simpa using h2.symm
      exact absurd this.2 hb
    · cases u with
      | nil =>
        refine ⟨[], ['\n'], ?_, by simp, Or.inr rfl⟩
        simpa using h2.symm
      | cons d u =>
        simp only [List.cons_append, List.cons.injEq] at h2
        have := h2.2.symm
        simp at this
        exact absurd this.2 hb

theorem splits_electron : Splits electronRx (fun t => t ∈ electronWords) := by
  intro s q hq
  have h := splits_seq (R := fun t => t ∈ electronWords)
    (P := fun t => t = ['E'] ∨ t = ['e']) (a := Rx.one fun c => c == 'E' || c == 'e')
    (b := Rx.seq (Rx.lit ['l', 'e']) (Rx.one fun c => c == 'c' || c == 'k'))
    (Q := fun t => t = ['l', 'e', 'c'] ∨ t = ['l', 'e', 'k']) ?_ ?_ ?_ s q hq
  · exact h
  · intro s q hq
    cases s with
    | nil => simp [Rx.one] at hq
    | cons c s =>
      simp only [Rx.one] at hq
      split_ifs at hq with h
      · simp only [List.mem_singleton] at hq
        subst hq
        simpa using h
      · simp at hq
  · refine splits_seq (P := fun u => u = ['l', 'e']) (Q := fun t => t = ['c'] ∨ t = ['k'])
      (splits_lit _) ?_ ?_
    · intro s q hq
      cases s with
      | nil => simp [Rx.one] at hq
      | cons c s =>
        simp only [Rx.one] at hq
        split_ifs at hq with h
        · simp only [List.mem_singleton] at hq
          subst hq
          simpa using h
        · simp at hq
    · rintro x y rfl (rfl | rfl) <;> simp
  · rintro x y (rfl | rfl) (rfl | rfl) <;> simp [electronWords]

theorem electron_word (w t : List Char) (hw : w ∈ electronWords) :
    (Rx.opt electronRx (w ++ t)).head? = some (w, t) := by
  simp only [electronWords, List.mem_cons, List.not_mem_nil, or_false] at hw
  rcases hw with rfl | rfl | rfl | rfl <;>
    simp [Rx.opt, electronRx, Rx.seq, Rx.one, Rx.lit]

theorem electron_none (t : List Char) (h : ∀ w ∈ electronWords, ¬ w <+: t) :
    electronRx t = [] := by
  by_contra hne
  obtain ⟨q, hq⟩ := List.exists_mem_of_ne_nil _ hne
  obtain ⟨h1, h2⟩ := splits_electron t q hq
  exact h _ h2 ⟨_, h1⟩

theorem plus_head (k : ℕ) (t : List Char) (h : ¬ "Plus".toList <+: t) :
    (Rx.star (Rx.lit "Plus".toList) (pluses k ++ t)).head? = some (pluses k, t) := by
  have h0 : Rx.lit "Plus".toList t = [] := by
    unfold Rx.lit
    rw [if_neg]
    rwa [List.isPrefixOf_iff_prefix]
  have key : ∀ n, k ≤ n →
      (Rx.starN (Rx.lit "Plus".toList) n (pluses k ++ t)).head? = some (pluses k, t) := by
    induction k with
    | zero =>
      intro n _
      rw [pluses, List.nil_append, starN_stop _ _ _ h0]
      rfl
    | succ k ih =>
      intro n hn
      obtain ⟨n, rfl⟩ : ∃ m, n = m + 1 := ⟨n - 1, by omega⟩
      have e : Rx.lit "Plus".toList (pluses (k + 1) ++ t) = [("Plus".toList, pluses k ++ t)] := by
        simp [Rx.lit, pluses]
      simp only [Rx.starN]
      rw [e]
      simp only [List.flatMap_cons, List.flatMap_nil, List.append_nil]
      rw [List.head?_append, head_map (ih n (by omega))]
      simp [pluses]
  have hl : k ≤ (pluses k ++ t).length := by
    have : ∀ k, k ≤ (pluses k).length := by
      intro k
      induction k with
      | zero => simp
      | succ k ih => simp [pluses]; omega
    have := this k
    rw [List.length_append]
    omega
  exact key _ hl

/-! ### The middle -/

theorem digits_head (cl : Classes) (d t : List Char) (hd : Digits cl d)
    (ht : NotFirst (fun c => (cl.digit c).isSome) t) :
    (digitsRx cl (d ++ t)).head? = some (d, t) :=
  star_one_head _ d t hd ht

theorem digits1_head (cl : Classes) (d t : List Char) (hne : d ≠ []) (hd : Digits cl d)
    (ht : NotFirst (fun c => (cl.digit c).isSome) t) :
    (digits1Rx cl (d ++ t)).head? = some (d, t) := by
  cases d with
  | nil => exact absurd rfl hne
  | cons c d =>
    unfold digits1Rx Rx.seq
    refine head_flatMap (x := ([c], d ++ t)) ?_ ?_
    · simp [Rx.one, hd c (by simp)]
    · exact head_map (digits_head cl d t (fun c hc => hd c (by simp [hc])) ht)

theorem elem_head (sym r : List Char) (hs : (∃ u, sym = [u] ∧ isUp u = true ∧ NotFirst isLow r) ∨
      ∃ u l, sym = [u, l] ∧ isUp u = true ∧ isLow l = true) (hel : ¬ "El".toList <+: sym ++ r) :
    (elemRx (sym ++ r)).head? = some (sym, r) := by
  unfold elemRx
  rw [if_neg (by rwa [List.isPrefixOf_iff_prefix])]
  unfold Rx.seq
  rcases hs with ⟨u, rfl, hu, hr⟩ | ⟨u, l, rfl, hu, hl⟩
  · refine head_flatMap (x := ([u], r)) ?_ ?_
    · unfold isUp at hu
      simp only [List.cons_append, List.nil_append, Rx.one]
      rw [if_pos hu]
      rfl
    · cases r with
      | nil => rfl
      | cons c r =>
        have hc := hr c rfl
        unfold isLow at hc
        simp only [Rx.opt, Rx.one, hc]
        rfl
  · refine head_flatMap (x := ([u], l :: r)) ?_ ?_
    · unfold isUp at hu
      simp only [List.cons_append, List.nil_append, Rx.one]
      rw [if_pos hu]
      rfl
    · unfold isLow at hl
      simp only [Rx.opt, Rx.one]
      rw [if_pos hl]
      rfl

theorem elem_none (s : List Char) (h : NotFirst isUp s ∨ "El".toList <+: s) : elemRx s = [] := by
  unfold elemRx
  rcases h with h | h
  · split_ifs
    · rfl
    · unfold Rx.seq
      cases s with
      | nil => rfl
      | cons c s =>
        have hc := h c rfl
        unfold isUp at hc
        simp only [Rx.one, hc]
        rfl
  · rw [if_pos (by rwa [List.isPrefixOf_iff_prefix])]

theorem elem_some (s : List Char) (c : Char) (hc : isUp c = true) (hs : s.head? = some c)
    (hel : ¬ "El".toList <+: s) : elemRx s ≠ [] := by
  cases s with
  | nil => simp at hs
  | cons d s =>
    simp only [List.head?_cons, Option.some.injEq] at hs
    subst hs
    unfold elemRx
    rw [if_neg (by rwa [List.isPrefixOf_iff_prefix])]
    unfold isUp at hc
    unfold Rx.seq Rx.opt
    simp only [Rx.one]
    rw [if_pos hc]
    simp

theorem ion_head (cl : Classes) (hcl : Classes.Ok cl) (head : String) (letter : Char)
    (hl : cl.digit letter = none) (a b t : List Char) (ha : a ≠ []) (hb : b ≠ [])
    (da : Digits cl a) (db : Digits cl b) (ht : NotFirst (fun c => (cl.digit c).isSome) t) :
    (ionRx cl head (String.ofList [letter]) (head.toList ++ a ++ letter :: b ++ t)).head? =
      some ((a, b), t) := by
  unfold ionRx
  refine head_flatMap (x := (head.toList, a ++ letter :: b ++ t)) ?_ ?_
  · have : head.toList.isPrefixOf (head.toList ++ a ++ letter :: b ++ t) = true := by
      rw [List.isPrefixOf_iff_prefix]
      exact ⟨a ++ letter :: b ++ t, by simp⟩
    unfold Rx.lit
    rw [if_pos this]
    simp
  refine head_flatMap (x := (a, letter :: b ++ t)) ?_ ?_
  · have := digits1_head cl a (letter :: b ++ t) ha da (by
      intro c hc
      simp only [List.cons_append, List.head?_cons, Option.some.injEq] at hc
      subst hc
      show (cl.digit letter).isSome = false
      rw [hl]
      rfl)
    simpa using this
  refine head_flatMap (x := ([letter], b ++ t)) ?_ ?_
  · simp [Rx.lit]
  exact head_map (digits1_head cl b t hb db ht)

theorem ion_none (cl : Classes) (head letter : String) (s : List Char) (h : ¬ head.toList <+: s) :
    ionRx cl head letter s = [] := by
  unfold ionRx Rx.lit
  rw [if_neg (by rwa [List.isPrefixOf_iff_prefix])]
  rfl

/-- What a match of the middle looks like. -/
def CoreText (cl : Classes) (c : Core) (t : List Char) : Prop :=
  match c with
  | .none => t = []
  | .elem e d => t = e ++ d ∧ Digits cl d ∧
      ((∃ u, e = [u] ∧ isUp u = true) ∨ ∃ u l, e = [u, l] ∧ isUp u = true ∧ isLow l = true)
  | .ionmc m q => Digits cl m ∧ Digits cl q ∧ m ≠ [] ∧ q ≠ [] ∧
      (t = "ionc".toList ++ q ++ 'm' :: m ∨ t = "ionm".toList ++ m ++ 'c' :: q)

theorem splits_digits (cl : Classes) : Splits (digitsRx cl) (Digits cl) := by
  refine splits_star (splits_one _) (by simp [Digits]) ?_
  intro x y hx hy c hc
  rcases List.mem_append.1 hc with h | h
  · exact hx c h
  · exact hy c h

theorem splits_digits1 (cl : Classes) : Splits (digits1Rx cl) (fun t => Digits cl t ∧ t ≠ []) := by
  refine splits_seq (P := fun t => Digits cl t ∧ t ≠ []) (Q := Digits cl) ?_ (splits_digits cl) ?_
  · intro s q hq
    obtain ⟨h1, h2⟩ := splits_one _ s q hq
    refine ⟨h1, h2, ?_⟩
    rintro h
    cases s with
    | nil => simp [Rx.one] at hq
    | cons c s =>
      simp only [Rx.one] at hq
      split_ifs at hq <;> simp at hq
      rw [hq] at h
      simp at h
  · rintro x y ⟨hx, hx'⟩ hy
    refine ⟨?_, by simp [hx']⟩
    intro c hc
    rcases List.mem_append.1 hc with h | h
    · exact hx c h
    · exact hy c h

theorem ion_mem (cl : Classes) (head letter : String) (s : List Char)
    (r : (List Char × List Char) × List Char) (hr : r ∈ ionRx cl head letter s) :
    s = head.toList ++ r.1.1 ++ letter.toList ++ r.1.2 ++ r.2 ∧ Digits cl r.1.1 ∧ Digits cl r.1.2 ∧
      r.1.1 ≠ [] ∧ r.1.2 ≠ [] := by
  simp only [ionRx, List.mem_flatMap, List.mem_map] at hr
  obtain ⟨h, hh, a, ha, l, hl, b, hb, rfl⟩ := hr
  obtain ⟨e1, f1⟩ := splits_lit _ _ _ hh
  obtain ⟨e2, f2, g2⟩ := splits_digits1 cl _ _ ha
  obtain ⟨e3, f3⟩ := splits_lit _ _ _ hl
  obtain ⟨e4, f4, g4⟩ := splits_digits1 cl _ _ hb
  refine ⟨?_, f2, f4, g2, g4⟩
  simp only [List.append_assoc]
  rw [e4, ← f3, e3, e2, ← f1, e1]

theorem core_mem (cl : Classes) (s : List Char) (c : Core) (r : List Char)
    (h : (c, r) ∈ coreRx cl s) : ∃ t, s = t ++ r ∧ CoreText cl c t := by
  simp only [coreRx, List.mem_append, List.mem_flatMap, List.mem_map, List.mem_singleton,
    Prod.mk.injEq] at h
  rcases h with ((⟨e, he, d, hd, rfl, rfl⟩ | ⟨q, hq, rfl, rfl⟩) | ⟨q, hq, rfl, rfl⟩) | ⟨rfl, rfl⟩
  · obtain ⟨e2, f2⟩ := splits_digits cl _ _ hd
    unfold elemRx at he
    split_ifs at he
    · simp at he
    have := splits_seq (P := fun t => ∃ u, t = [u] ∧ isUp u = true)
      (Q := fun t => t = [] ∨ ∃ l, t = [l] ∧ isLow l = true)
      (R := fun e => (∃ u, e = [u] ∧ isUp u = true) ∨ ∃ u l, e = [u, l] ∧ isUp u = true ∧
        isLow l = true) ?_ ?_ ?_ s e he
    · refine ⟨e.1 ++ d.1, ?_, rfl, f2, this.2⟩
      rw [List.append_assoc, e2, this.1]
    · intro s q hq
      cases s with
      | nil => simp [Rx.one] at hq
      | cons c s =>
        simp only [Rx.one] at hq
        split_ifs at hq with h
        · simp only [List.mem_singleton] at hq
          subst hq
          exact ⟨rfl, c, rfl, h⟩
        · simp at hq
    · refine splits_opt ?_ (Or.inl rfl)
      intro s q hq
      cases s with
      | nil => simp [Rx.one] at hq
      | cons c s =>
        simp only [Rx.one] at hq
        split_ifs at hq with h
        · simp only [List.mem_singleton] at hq
          subst hq
          exact ⟨rfl, Or.inr ⟨c, rfl, h⟩⟩
        · simp at hq
    · rintro x y ⟨u, rfl, hu⟩ (rfl | ⟨l, rfl, hl⟩)
      · exact Or.inl ⟨u, rfl, hu⟩
      · exact Or.inr ⟨u, l, rfl, hu, hl⟩
  · obtain ⟨h1, h2, h3, h4, h5⟩ := ion_mem cl _ _ _ _ hq
    exact ⟨_, h1, h3, h2, h5, h4, Or.inl (by simp)⟩
  · obtain ⟨h1, h2, h3, h4, h5⟩ := ion_mem cl _ _ _ _ hq
    exact ⟨_, h1, h2, h3, h4, h5, Or.inr (by simp)⟩
  · exact ⟨[], rfl, rfl⟩

theorem coreText_word {cl : Classes} (hcl : Classes.Ok cl) {c : Core} {t : List Char}
    (h : CoreText cl c t) : ∀ x ∈ t, cl.word x = true := by
  have up : ∀ u, isUp u = true → cl.word u = true := fun u hu =>
    (hcl.letter u (Or.inr (Or.inl (by simpa [isUp] using hu)))).1
  have low : ∀ u, isLow u = true → cl.word u = true := fun u hu =>
    (hcl.letter u (Or.inl (by simpa [isLow] using hu))).1
  have dig : ∀ d, Digits cl d → ∀ x ∈ d, cl.word x = true := fun d hd x hx =>
    hcl.digit_word x (hd x hx)
  have lo : ∀ x ∈ "ioncm".toList, cl.word x = true := by
    intro x hx
    refine low x ?_
    have : ∀ x ∈ "ioncm".toList, isLow x = true := by decide
    exact this x hx
  cases c with
  | none =>
    have h : t = [] := h
    subst h
    simp
  | elem e d =>
    obtain ⟨rfl, hd, he⟩ := h
    intro x hx
    rcases List.mem_append.1 hx with hx | hx
    · rcases he with ⟨u, rfl, hu⟩ | ⟨u, l, rfl, hu, hl⟩
      · simp only [List.mem_singleton] at hx
        subst hx
        exact up _ hu
      · simp only [List.mem_cons, List.not_mem_nil, or_false] at hx
        rcases hx with rfl | rfl
        · exact up _ hu
        · exact low _ hl
    · exact dig d hd x hx
  | ionmc m q =>
    obtain ⟨hm, hq, _, _, rfl | rfl⟩ := h
    · intro x hx
      simp only [List.mem_append, List.mem_cons] at hx
      rcases hx with (hx | hx) | rfl | hx
      · exact lo x (by revert hx; simp; tauto)
      · exact dig q hq x hx
      · exact lo _ (by simp)
      · exact dig m hm x hx
    · intro x hx
      simp only [List.mem_append, List.mem_cons] at hx
      rcases hx with (hx | hx) | rfl | hx
      · exact lo x (by revert hx; simp; tauto)
      · exact dig m hm x hx
      · exact lo _ (by simp)
      · exact dig q hq x hx

theorem word_newline {cl : Classes} (hcl : Classes.Ok cl) {t : List Char}
    (h : ∀ x ∈ t, cl.word x = true) : '\n' ∉ t := by
  intro hn
  have := h _ hn
  rw [hcl.newline] at this
  cases this

/-! ### All together -/

theorem name_head {cl : Classes} {s p b r1 r2 r3 pl el : List Char} {c : Core}
    (hp : (Rx.star praeWord s).head? = some (p, b)) (hc : (coreRx cl b).head? = some (c, r1))
    (hpl : (Rx.star (Rx.lit "Plus".toList) r1).head? = some (pl, r2))
    (hel : (Rx.opt electronRx r2).head? = some (el, r3)) (ht : Tail cl r3) :
    (nameRx cl s).head? = some ⟨p, c, pl, el⟩ := by
  unfold nameRx
  refine head_flatMap hp (head_flatMap hc (head_flatMap hpl (head_flatMap hel ?_)))
  rw [tail_iff] at ht
  rw [List.head?_map]
  cases h : (Rx.lazyStar cl.word r3).filter (fun q => atEnd q.2) with
  | nil => exact absurd h ht
  | cons a l => rfl

theorem splits_plus : Splits (Rx.star (Rx.lit "Plus".toList)) (fun t => ∃ k, t = pluses k) := by
  refine splits_star (splits_lit _) ⟨0, rfl⟩ ?_
  rintro x y rfl ⟨k, rfl⟩
  exact ⟨k + 1, rfl⟩

theorem electron_letters : ∀ w ∈ electronWords, ∀ x ∈ w, isLow x = true ∨ isUp x = true := by
  decide

theorem pluses_letters (k : ℕ) : ∀ x ∈ pluses k, isLow x = true ∨ isUp x = true := by
  induction k with
  | zero => simp [pluses]
  | succ k ih =>
    intro x hx
    have h : ∀ x ∈ ['P', 'l', 'u', 's'], isLow x = true ∨ isUp x = true := by decide
    simp only [pluses, List.mem_cons] at hx
    rcases hx with rfl | rfl | rfl | rfl | hx
    · exact h _ (by simp)
    · exact h _ (by simp)
    · exact h _ (by simp)
    · exact h _ (by simp)
    · exact ih x hx

theorem letters_word {cl : Classes} (hcl : Classes.Ok cl) {t : List Char}
    (h : ∀ x ∈ t, isLow x = true ∨ isUp x = true) : ∀ x ∈ t, cl.word x = true := by
  intro x hx
  rcases h x hx with h | h
  · exact (hcl.letter x (Or.inl (by simpa [isLow] using h))).1
  · exact (hcl.letter x (Or.inr (Or.inl (by simpa [isUp] using h)))).1

/-- The base name decides: heads exist at every stage. -/
theorem base_head {cl : Classes} (hcl : Classes.Ok cl) (b : List Char) (ht : Tail cl b) :
    ∃ c pl el r1 r2 r3, (coreRx cl b).head? = some (c, r1) ∧
      (Rx.star (Rx.lit "Plus".toList) r1).head? = some (pl, r2) ∧
      (Rx.opt electronRx r2).head? = some (el, r3) ∧ Tail cl r3 := by
  have e1 : ∃ x, (coreRx cl b).head? = some x := by
    rw [← Option.isSome_iff_exists, List.isSome_head?]
    simp [coreRx]
  obtain ⟨⟨c, r1⟩, h1⟩ := e1
  obtain ⟨t, ht1, ht2⟩ := core_mem cl b c r1 (List.mem_of_mem_head? h1)
  have T1 : Tail cl r1 := by
    rw [ht1] at ht
    exact tail_suffix ht (word_newline hcl (coreText_word hcl ht2))
  have e2 : ∃ x, (Rx.star (Rx.lit "Plus".toList) r1).head? = some x := by
    rw [← Option.isSome_iff_exists, List.isSome_head?]
    unfold Rx.star
    cases r1.length <;> simp [Rx.starN]
  obtain ⟨⟨pl, r2⟩, h2⟩ := e2
  obtain ⟨f1, k, hk⟩ := splits_plus r1 _ (List.mem_of_mem_head? h2)
  have T2 : Tail cl r2 := by
    rw [← f1] at T1
    have hk : pl = pluses k := hk
    exact tail_suffix T1 (word_newline hcl (letters_word hcl (by
      show ∀ x ∈ pl, _
      rw [hk]; exact pluses_letters k)))
  have e3 : ∃ x, (Rx.opt electronRx r2).head? = some x := by
    rw [← Option.isSome_iff_exists, List.isSome_head?]
    simp [Rx.opt]
  obtain ⟨⟨el, r3⟩, h3⟩ := e3
  obtain ⟨g1, g2⟩ := splits_opt (P := fun t => t = [] ∨ t ∈ electronWords)
    (fun s q hq => ⟨(splits_electron s q hq).1, Or.inr (splits_electron s q hq).2⟩) (Or.inl rfl)
    r2 _ (List.mem_of_mem_head? h3)
  have T3 : Tail cl r3 := by
    rw [← g1] at T2
    refine tail_suffix T2 (word_newline hcl (letters_word hcl ?_))
    rcases g2 with g2 | g2
    · have g2 : el = [] := g2
      show ∀ x ∈ el, _
      rw [g2]; simp
    · exact electron_letters _ g2
  exact ⟨c, pl, el, r1, r2, r3, h1, h2, h3, T3⟩

/-- A name whose base contains something else than word characters does not match. -/
theorem name_none {cl : Classes} (hcl : Classes.Ok cl) (ws : List (List Char)) (b : List Char)
    (hw : ∀ w ∈ ws, '\n' ∉ w) (hb : '_' ∉ b.takeWhile (· != '\n')) (ht : ¬ Tail cl b) :
    nameRx cl (prefixText ws ++ b) = [] := by
  by_contra hne
  obtain ⟨g, hg⟩ := List.exists_mem_of_ne_nil _ hne
  simp only [nameRx, List.mem_flatMap, List.mem_map] at hg
  obtain ⟨p, hp, c, hc, pl, hpl, el, hel, su, hsu, -⟩ := hg
  have T4 : Tail cl el.2 := by
    rw [tail_iff]
    exact List.ne_nil_of_mem hsu
  obtain ⟨g1, g2⟩ := splits_opt (P := fun t => t = [] ∨ t ∈ electronWords)
    (fun s q hq => ⟨(splits_electron s q hq).1, Or.inr (splits_electron s q hq).2⟩) (Or.inl rfl)
    _ _ hel
  have T3 : Tail cl pl.2 := by
    rw [← g1]
    refine tail_extend T4 (letters_word hcl ?_)
    rcases g2 with g2 | g2
    · rw [g2]; simp
    · exact electron_letters _ g2
  obtain ⟨f1, k, hk⟩ := splits_plus _ _ hpl
  have T2 : Tail cl c.2 := by
    rw [← f1]
    refine tail_extend T3 (letters_word hcl ?_)
    rw [hk]
    exact pluses_letters k
  obtain ⟨t, ht1, ht2⟩ := core_mem cl _ c.1 c.2 hc
  have T1 : Tail cl p.2 := by
    rw [ht1]
    exact tail_extend T2 (coreText_word hcl ht2)
  -- the prefix is the longest one
  have hsp : p.1 ++ p.2 = prefixText ws ++ b ∧ (p.1 = [] ∨ p.1.getLast? = some '_') ∧
      '\n' ∉ p.1 := by
    refine splits_star (P := fun t => t.getLast? = some '_' ∧ '\n' ∉ t)
      (Q := fun t => (t = [] ∨ t.getLast? = some '_') ∧ '\n' ∉ t) ?_ (by simp) ?_ _ _ hp
    · refine splits_seq (P := fun t => '\n' ∉ t) (Q := fun t => t = ['_']) ?_ (splits_lit _) ?_
      · refine splits_star (splits_one _) (by simp) ?_
        intro x y hx hy hn
        rcases List.mem_append.1 hn with h | h
        · have := hx _ h
          simp at this
        · exact hy h
      · rintro x y hx rfl
        refine ⟨by simp, ?_⟩
        simp [hx]
    · rintro x y ⟨hx1, hx2⟩ ⟨hy1, hy2⟩
      refine ⟨?_, by simp [hx2, hy2]⟩
      rcases hy1 with rfl | hy1
      · right; simpa using hx1
      · right; rw [List.getLast?_append, hy1]; rfl
  obtain ⟨hs, hlast, hnl⟩ := hsp
  by_cases hb0 : b = []
  · exact ht ⟨[], [], by simp [hb0], by simp, Or.inl rfl⟩
  rcases List.append_eq_append_iff.1 hs with ⟨u, h1, h2⟩ | ⟨u, h1, h2⟩
  · rw [h2] at T1
    exact ht (tail_end T1 hb0)
  · -- the prefix would be longer
    rcases hlast with h0 | hl
    · rw [h0] at h1
      have : u = [] := by
        have := congrArg List.length h1
        simp at this
        exact List.length_eq_zero_iff.1 (by omega)
      subst this
      rw [List.nil_append] at h2
      exact ht (h2 ▸ T1)
    · rcases List.eq_nil_or_concat u with rfl | ⟨v, x, rfl⟩
      · rw [List.nil_append] at h2
        exact ht (h2 ▸ T1)
      · rw [List.concat_eq_append] at h1 h2
        rw [h1] at hl hnl
        have hx : x = '_' := by simpa using hl
        subst hx
        apply hb
        rw [h2]
        have : ∀ y ∈ v ++ ['_'], (y != '\n') = true := by
          intro y hy
          simp only [bne_iff_ne, ne_eq]
          rintro rfl
          exact hnl (by simp at hy ⊢; tauto)
        rw [List.takeWhile_append_of_pos this]
        simp

/-! ### The answer -/

theorem numeral_eq (cl : Classes) (l : List Char) : numeral cl l = (decimal cl l : ℚ) := by
  have key : ∀ (l : List Char) (n : ℕ), l.foldl (fun n c => 10 * n + (cl.digit c).getD 0) n =
      n * 10 ^ l.length + decimal cl l := by
    intro l
    induction l with
    | nil => intro n; simp [decimal]
    | cons c l ih =>
      intro n
      rw [List.foldl_cons, ih, decimal, List.length_cons, pow_succ]
      ring
  unfold numeral
  rw [key l 0]
  simp

/-- The answer before anything is known. -/
def start (species : String) : Dict := fun k =>
  if k = "tracer" ∨ k = "ejected" then some (.bool false)
  else if k = "name" then some (.str species) else none

theorem setWords_get (ws : List (List Char)) (hw : ∀ w ∈ ws, '_' ∉ w) (d : Dict) (key : String) :
    setWords (prefixText ws) d key =
      if key.toList ∈ ws ∧ key ≠ "" then some (.bool true) else d key := by
  unfold setWords
  rw [split_prefix ws hw, List.foldl_append]
  simp only [List.foldl_cons, List.foldl_nil, if_pos]
  clear hw
  induction ws generalizing d with
  | nil => simp
  | cons w ws ih =>
    rw [List.foldl_cons, ih]
    by_cases h1 : key.toList ∈ ws ∧ key ≠ ""
    · rw [if_pos h1, if_pos ⟨List.mem_cons_of_mem _ h1.1, h1.2⟩]
    · rw [if_neg h1]
      by_cases hw : w = []
      · rw [if_pos hw, if_neg]
        rintro ⟨h2, h3⟩
        rcases List.mem_cons.1 h2 with h | h
        · rw [hw] at h
          apply h3
          rw [← String.toList_inj]
          simpa using h
        · exact h1 ⟨h, h3⟩
      · rw [if_neg hw]
        unfold Dict.set
        by_cases hk : key = String.ofList w
        · rw [if_pos hk, if_pos]
          subst hk
          refine ⟨by simp, ?_⟩
          intro h
          apply hw
          rw [← String.toList_inj] at h
          simpa using h
        · rw [if_neg hk, if_neg]
          rintro ⟨h2, h3⟩
          rcases List.mem_cons.1 h2 with h | h
          · apply hk
            rw [← h]
            simp
          · exact h1 ⟨h, h3⟩

theorem identify_groups (cl : Classes) (species : String) (g : Groups)
    (hd : defaults.lookup (String.ofList (underscores species)) = none)
    (hg : (nameRx cl (underscores species)).head? = some g) :
    identify cl species = (do
      let ret ← setCore cl g.core (setWords g.prae (start species))
      let ret ← setPlus g.plus ret
      let ret := setElectron g.electron ret
      if (ret "mass").isNone ∨ (ret "charge").isNone ∨ (ret "ision").isNone then
        throw .genericException
      return ret) := by
  unfold identify
  simp only [hd, hg]
  rfl

/-- Writing mass, charge and kind. -/
def put (d : Dict) (mass charge : ℚ) (ision : Bool) : Dict :=
  ((d.set "mass" (.num mass)).set "charge" (.num charge)).set "ision" (.bool ision)

theorem put_says (d : Dict) (m q : ℚ) (i : Bool) : Says (put d m q i) m q i := by
  refine ⟨?_, ?_, ?_⟩ <;> simp [put, Dict.set]

theorem put_other (d : Dict) (m q : ℚ) (i : Bool) (key : String) (h1 : key ≠ "mass")
    (h2 : key ≠ "charge") (h3 : key ≠ "ision") : put d m q i key = d key := by
  simp [put, Dict.set, h1, h2, h3]

theorem put_flags (species : String) (ws : List (List Char)) (hw : ∀ w ∈ ws, '_' ∉ w)
    (m q : ℚ) (i : Bool) :
    Flags (put (setWords (prefixText ws) (start species)) m q i) species ws := by
  intro key h1 h2 h3
  rw [put_other _ _ _ _ _ h1 h2 h3, setWords_get ws hw]
  rfl

theorem put_put (d : Dict) (m q m' q' : ℚ) (i i' : Bool) :
    put (put d m q i) m' q' i' = put d m' q' i' := by
  funext k
  simp only [put, Dict.set]
  split_ifs <;> rfl

theorem setPlus_put (k : ℕ) (d : Dict) (m q : ℚ) (i : Bool) :
    setPlus (pluses k) (put d m q i) = .ok (put d m (if q = 0 then (k : ℚ) else q) i) := by
  have hl : ∀ k, (pluses k).length = 4 * k := by
    intro k
    induction k with
    | zero => rfl
    | succ k ih => simp [pluses, ih]; ring
  unfold setPlus
  cases k with
  | zero =>
    rw [if_pos (show pluses 0 = [] from rfl)]
    congr 2
    split_ifs with h
    · simpa using h
    · rfl
  | succ k =>
    rw [if_neg (by simp [pluses])]
    have e : put d m q i "charge" = some (.num q) := (put_says d m q i).2.1
    rw [e]
    simp only [Val.num.injEq, reduceCtorEq, or_false]
    congr 1
    split_ifs with h
    · funext key
      rw [hl]
      simp only [put, Dict.set]
      have : ((4 * (k + 1) : ℕ) : ℚ) / 4 = ((k + 1 : ℕ) : ℚ) := by
        push_cast
        ring
      rw [this]
      by_cases h1 : key = "charge"
      · subst h1
        simp
      · simp [h1]
    · rfl

theorem identify_put (cl : Classes) (species : String) (ws : List (List Char)) (c : Core) (k : ℕ)
    (m q : ℚ) (i : Bool)
    (hd : defaults.lookup (String.ofList (underscores species)) = none)
    (hg : (nameRx cl (underscores species)).head? = some ⟨prefixText ws, c, pluses k, []⟩)
    (hc : ∀ d, setCore cl c d = .ok (put d m q i)) :
    identify cl species = .ok (put (setWords (prefixText ws) (start species)) m
      (if q = 0 then (k : ℚ) else q) i) := by
  rw [identify_groups cl species _ hd hg]
  simp only [hc]
  show (do
      let ret ← setPlus (pluses k) (put (setWords (prefixText ws) (start species)) m q i)
      let ret := setElectron [] ret
      if (ret "mass").isNone ∨ (ret "charge").isNone ∨ (ret "ision").isNone then
        throw Err.genericException
      return ret) = _
  rw [setPlus_put]
  simp only [setElectron, bind, Except.bind, if_pos]
  have := put_says (setWords (prefixText ws) (start species)) m (if q = 0 then (k : ℚ) else q) i
  rw [this.1, this.2.1, this.2.2]
  rfl

theorem identify_electron (cl : Classes) (species : String) (ws : List (List Char)) (c : Core)
    (pl el : List Char) (hel : el ≠ [])
    (hd : defaults.lookup (String.ofList (underscores species)) = none)
    (hg : (nameRx cl (underscores species)).head? = some ⟨prefixText ws, c, pl, el⟩)
    (hc : (c = .none ∧ pl = []) ∨ ∃ m q i k, pl = pluses k ∧ ∀ d, setCore cl c d =
      .ok (put d m q i)) :
    identify cl species = .ok (put (setWords (prefixText ws) (start species)) 1 (-1) false) := by
  rw [identify_groups cl species _ hd hg]
  have fin : ∀ d : Dict, (do
      let ret := setElectron el d
      if (ret "mass").isNone ∨ (ret "charge").isNone ∨ (ret "ision").isNone then
        throw Err.genericException
      return ret : Res Dict) = .ok (put d 1 (-1) false) := by
    intro d
    have e : setElectron el d = put d 1 (-1) false := by
      unfold setElectron
      rw [if_neg hel]
      rfl
    rw [e]
    have := put_says d 1 (-1) false
    dsimp only
    rw [this.1, this.2.1, this.2.2]
    rfl
  rcases hc with ⟨rfl, rfl⟩ | ⟨m, q, i, k, rfl, hc⟩
  · exact fin _
  · simp only [hc]
    show (do
      let ret ← setPlus (pluses k) (put (setWords (prefixText ws) (start species)) m q i)
      let ret := setElectron el ret
      if (ret "mass").isNone ∨ (ret "charge").isNone ∨ (ret "ision").isNone then
        throw Err.genericException
      return ret) = _
    rw [setPlus_put]
    refine (fin _).trans ?_
    rw [put_put]

/-! ### Which names -/

theorem coreText_sep {cl : Classes} (hcl : Classes.Ok cl) {c : Core} {t : List Char}
    (h : CoreText cl c t) : '_' ∉ t := by
  have dig : ∀ d, Digits cl d → '_' ∉ d := by
    intro d hd hm
    have := hd _ hm
    rw [(hcl.letter '_' (Or.inr (Or.inr rfl))).2] at this
    cases this
  cases c with
  | none =>
    have h : t = [] := h
    subst h
    simp
  | elem e d =>
    obtain ⟨rfl, hd, he⟩ := h
    rw [List.mem_append, not_or]
    refine ⟨?_, dig d hd⟩
    have hu : isUp '_' = false := by decide
    have hl : isLow '_' = false := by decide
    rcases he with ⟨u, rfl, h1⟩ | ⟨u, l, rfl, h1, h2⟩
    · rw [List.mem_singleton]
      rintro rfl
      rw [hu] at h1
      cases h1
    · simp only [List.mem_cons, List.not_mem_nil, or_false, not_or]
      constructor
      · rintro rfl
        rw [hu] at h1
        cases h1
      · rintro rfl
        rw [hl] at h2
        cases h2
  | ionmc m q =>
    obtain ⟨hm, hq, _, _, rfl | rfl⟩ := h <;>
    · have h1 := dig m hm
      have h2 := dig q hq
      simp [h1, h2]

theorem groups_of {cl : Classes} (hcl : Classes.Ok cl) (ws : List (List Char)) (hw : Words ws)
    (c : Core) (ct el su : List Char) (k : ℕ) (hct : CoreText cl c ct)
    (hc : (coreRx cl (ct ++ (pluses k ++ (el ++ su)))).head? = some (c, pluses k ++ (el ++ su)))
    (hp : ¬ "Plus".toList <+: el ++ su)
    (hel : el ∈ electronWords ∨ (el = [] ∧ ∀ w ∈ electronWords, ¬ w <+: su)) (hsu : Plain cl su) :
    (nameRx cl (prefixText ws ++ (ct ++ (pluses k ++ (el ++ su))))).head? =
      some ⟨prefixText ws, c, pluses k, el⟩ := by
  have sep : ∀ t : List Char, (∀ x ∈ t, isLow x = true ∨ isUp x = true) → '_' ∉ t := by
    intro t h hm
    have := h _ hm
    revert this
    decide
  refine name_head (prae_head' ws _ (fun w h => (hw w h).2.2) ?_) hc (plus_head k _ hp) (r3 := su)
    ?_ ?_
  · intro hm
    have hm := (List.takeWhile_sublist _).subset hm
    simp only [List.mem_append] at hm
    rcases hm with h | h | h | h
    · exact coreText_sep hcl hct h
    · exact sep _ (pluses_letters k) h
    · rcases hel with hel | hel
      · exact sep _ (electron_letters _ hel) h
      · rw [hel.1] at h
        simp at h
    · exact (hsu _ h).2.1 rfl
  · rcases hel with hel | ⟨rfl, hel⟩
    · exact electron_word el su hel
    · rw [List.nil_append, Rx.opt, electron_none su hel]
      rfl
  · exact ⟨su, [], by simp, fun x hx => (hsu x hx).1, Or.inl rfl⟩

theorem mass_symbol (sym : List Char) (m : ℚ) (h : massOf (String.ofList sym) = some m) :
    (String.ofList sym, m) ∈ masslist := by
  unfold massOf at h
  rw [List.lookup_eq_some_iff] at h
  obtain ⟨l1, l2, h1, h2⟩ := h
  have : (String.ofList sym, m) ∈ masslist.reverse := by rw [h1]; simp
  simpa using this

/-- The entries of the table are symbols. -/
def isSymbol : List Char → Bool
  | [u] => isUp u && u != 'E'
  | [u, l] => isUp u && isLow l && !(u == 'E' && l == 'l')
  | _ => false

theorem mass_table : ∀ e ∈ masslist, isSymbol e.1.toList = true := by
  decide +kernel

theorem symbol_of_mass (sym : List Char) (m : ℚ) (h : massOf (String.ofList sym) = some m) :
    isSymbol sym = true := by
  have := mass_table _ (mass_symbol sym m h)
  simpa using this

theorem not_low_of_digit {cl : Classes} (hcl : Classes.Ok cl) (c : Char)
    (h : (cl.digit c).isSome) : isLow c = false := by
  by_contra hn
  have := (hcl.letter c (Or.inl (by simpa [isLow] using hn))).2
  rw [this] at h
  cases h

theorem digit_letter {cl : Classes} (hcl : Classes.Ok cl) (c : Char)
    (h : isLow c = true ∨ isUp c = true) : cl.digit c = none := by
  rcases h with h | h
  · exact (hcl.letter c (Or.inl (by simpa [isLow] using h))).2
  · exact (hcl.letter c (Or.inr (Or.inl (by simpa [isUp] using h)))).2

theorem core_elem {cl : Classes} (hcl : Classes.Ok cl) (sym d t : List Char) (m : ℚ)
    (hm : massOf (String.ofList sym) = some m) (hd : Digits cl d)
    (hlow : d = [] → sym.length = 1 → NotFirst isLow t)
    (hdig : NotFirst (fun c => (cl.digit c).isSome) t) :
    (coreRx cl (sym ++ d ++ t)).head? = some (.elem sym d, t) ∧ CoreText cl (.elem sym d) (sym ++ d)
      := by
  have hs := symbol_of_mass sym m hm
  have form : ((∃ u, sym = [u] ∧ isUp u = true ∧ u ≠ 'E') ∨ ∃ u l, sym = [u, l] ∧ isUp u = true ∧
      isLow l = true ∧ ¬ (u = 'E' ∧ l = 'l')) := by
    match sym, hs with
    | [u], hs =>
      left
      simp only [isSymbol, Bool.and_eq_true, bne_iff_ne] at hs
      exact ⟨u, rfl, hs⟩
    | [u, l], hs =>
      right
      simp only [isSymbol, Bool.and_eq_true, Bool.not_eq_true', Bool.and_eq_false_iff,
        beq_eq_false_iff_ne] at hs
      refine ⟨u, l, rfl, hs.1.1, hs.1.2, ?_⟩
      rintro ⟨rfl, rfl⟩
      simp at hs
  have hnot : ¬ "El".toList <+: sym ++ (d ++ t) := by
    rcases form with ⟨u, rfl, _, h⟩ | ⟨u, l, rfl, _, _, h⟩
    · rintro ⟨r, hr⟩
      simp at hr
      exact h hr.1.symm
    · rintro ⟨r, hr⟩
      simp at hr
      exact h ⟨hr.1.symm, hr.2.1.symm⟩
  have he : (elemRx (sym ++ (d ++ t))).head? = some (sym, d ++ t) := by
    refine elem_head sym (d ++ t) ?_ hnot
    rcases form with ⟨u, rfl, hu, h⟩ | ⟨u, l, rfl, hu, hl, h⟩
    · refine Or.inl ⟨u, rfl, hu, ?_⟩
      cases d with
      | nil => exact hlow rfl rfl
      | cons c d =>
        intro x hx
        simp only [List.cons_append, List.head?_cons, Option.some.injEq] at hx
        subst hx
        exact not_low_of_digit hcl _ (hd _ (by simp))
    · exact Or.inr ⟨u, l, rfl, hu, hl⟩
  constructor
  · unfold coreRx
    have := head_flatMap (f := fun e : List Char × List Char => (digitsRx cl e.2).map fun d =>
      (Core.elem e.1 d.1, d.2)) he (head_map (digits_head cl d t hd hdig))
    rw [List.append_assoc sym d t, List.head?_append, List.head?_append, List.head?_append, this]
    rfl
  · refine ⟨rfl, hd, ?_⟩
    rcases form with ⟨u, rfl, hu, _⟩ | ⟨u, l, rfl, hu, hl, _⟩
    · exact Or.inl ⟨u, rfl, hu⟩
    · exact Or.inr ⟨u, l, rfl, hu, hl⟩

theorem pluses_notFirst {p : Char → Bool} (hP : p 'P' = false) (k : ℕ) (t : List Char)
    (h : k = 0 → NotFirst p t) : NotFirst p (pluses k ++ t) := by
  cases k with
  | zero => exact h rfl
  | succ k =>
    intro c hc
    simp only [pluses, List.cons_append, List.head?_cons, Option.some.injEq] at hc
    rw [← hc]
    exact hP

theorem setCore_elem (cl : Classes) (sym d : List Char) (m : ℚ)
    (hm : massOf (String.ofList sym) = some m) (dict : Dict) :
    setCore cl (.elem sym d) dict = .ok (put dict (m * (18362 / 10)) (decimal cl d) true) := by
  simp only [setCore, hm]
  unfold put
  have : (if d = [] then 0 else numeral cl d) = (decimal cl d : ℚ) := by
    split_ifs with h
    · subst h
      simp [decimal]
    · exact numeral_eq cl d
  rw [this]

theorem setCore_ion (cl : Classes) (m q : List Char) (dict : Dict) :
    setCore cl (.ionmc m q) dict =
      .ok (put dict (decimal cl m * (18362 / 10)) (decimal cl q) true) := by
  simp only [setCore, numeral_eq]
  rfl

theorem core_ionc {cl : Classes} (hcl : Classes.Ok cl) (m q t : List Char) (hm : m ≠ [])
    (hq : q ≠ []) (dm : Digits cl m) (dq : Digits cl q)
    (ht : NotFirst (fun c => (cl.digit c).isSome) t) :
    (coreRx cl (("ionc".toList ++ q ++ 'm' :: m) ++ t)).head? = some (.ionmc m q, t) := by
  unfold coreRx
  have h1 : elemRx (("ionc".toList ++ q ++ 'm' :: m) ++ t) = [] := by
    apply elem_none
    left
    intro c hc
    simp at hc
    subst hc
    decide
  have h2 := ion_head cl hcl "ionc" 'm' (digit_letter hcl 'm' (by decide)) q m t hq hm dq dm ht
  rw [List.head?_append, List.head?_append, List.head?_append, h1]
  rw [show (String.ofList ['m']) = "m" from rfl] at h2
  rw [List.head?_map, h2]
  rfl

theorem core_ionm {cl : Classes} (hcl : Classes.Ok cl) (m q t : List Char) (hm : m ≠ [])
    (hq : q ≠ []) (dm : Digits cl m) (dq : Digits cl q)
    (ht : NotFirst (fun c => (cl.digit c).isSome) t) :
    (coreRx cl (("ionm".toList ++ m ++ 'c' :: q) ++ t)).head? = some (.ionmc m q, t) := by
  unfold coreRx
  have h1 : elemRx (("ionm".toList ++ m ++ 'c' :: q) ++ t) = [] := by
    apply elem_none
    left
    intro c hc
    simp at hc
    subst hc
    decide
  have h2 := ion_head cl hcl "ionm" 'c' (digit_letter hcl 'c' (by decide)) m q t hm hq dm dq ht
  have h3 : ionRx cl "ionc" "m" (("ionm".toList ++ m ++ 'c' :: q) ++ t) = [] := by
    apply ion_none
    rintro ⟨r, hr⟩
    simp at hr
  rw [List.head?_append, List.head?_append, List.head?_append, h1, h3]
  rw [show (String.ofList ['c']) = "c" from rfl] at h2
  rw [List.head?_map (l := ionRx cl "ionm" "c" _), h2]
  rfl

theorem core_nothing (cl : Classes) (s : List Char) (h1 : elemRx s = [])
    (h2 : ¬ "ionc".toList <+: s) (h3 : ¬ "ionm".toList <+: s) :
    (coreRx cl s).head? = some (.none, s) := by
  unfold coreRx
  rw [h1, ion_none _ _ _ _ h2, ion_none _ _ _ _ h3]
  rfl

/-- Where nothing is found in the middle there is no element. -/
theorem core_none_head {cl : Classes} {s r : List Char} (h : (coreRx cl s).head? = some (.none, r)) :
    r = s ∧ elemRx s = [] := by
  constructor
  · obtain ⟨t, h1, h2⟩ := core_mem cl s _ r (List.mem_of_mem_head? h)
    have h2 : t = [] := h2
    rw [h2] at h1
    simpa using h1.symm
  · by_contra hne
    cases he : elemRx s with
    | nil => exact hne he
    | cons e l =>
      have : (elemRx s).head? = some e := by rw [he]; rfl
      have hd : ∃ d, (digitsRx cl e.2).head? = some d := by
        rw [← Option.isSome_iff_exists, List.isSome_head?]
        unfold digitsRx Rx.star
        cases e.2.length <;> simp [Rx.starN]
      obtain ⟨d, hd⟩ := hd
      have := head_flatMap (f := fun e : List Char × List Char => (digitsRx cl e.2).map fun d =>
        (Core.elem e.1 d.1, d.2)) this (head_map hd)
      unfold coreRx at h
      rw [List.head?_append, List.head?_append, List.head?_append, this] at h
      cases h

theorem filterM_ok {α : Type} (p : α → Res Bool) (l r : List α) (h : l.filterM p = .ok r) :
    (∀ s ∈ l, ∃ v, p s = .ok v) ∧ r = l.filter (fun s => match p s with
      | .ok v => v
      | .error _ => false) := by
  have aux : ∀ (l acc r : List α), l.filterAuxM p acc = .ok r → (∀ s ∈ l, ∃ v, p s = .ok v) ∧
      r = (l.filter (fun s => match p s with
        | .ok v => v
        | .error _ => false)).reverse ++ acc := by
    intro l
    induction l with
    | nil =>
      intro acc r h
      cases h
      simp
    | cons x l ih =>
      intro acc r h
      rw [List.filterAuxM] at h
      cases hx : p x with
      | error e =>
        rw [hx] at h
        cases h
      | ok v =>
        rw [hx] at h
        obtain ⟨h1, h2⟩ := ih _ _ h
        refine ⟨?_, ?_⟩
        · intro s hs
          rcases List.mem_cons.1 hs with rfl | hs
          · exact ⟨v, hx⟩
          · exact h1 s hs
        · rw [h2]
          cases v
          · rw [List.filter_cons_of_neg (by simp [hx])]
            rfl
          · rw [List.filter_cons_of_pos (by simp [hx])]
            simp
  unfold List.filterM at h
  cases h1 : List.filterAuxM p l [] with
  | error e =>
    rw [h1] at h
    cases h
  | ok q =>
    rw [h1] at h
    cases h
    obtain ⟨h2, h3⟩ := aux _ _ _ h1
    refine ⟨h2, ?_⟩
    rw [h3]
    simp

theorem filterM_of {α : Type} (p : α → Res Bool) (l : List α) (h : ∀ s ∈ l, ∃ v, p s = .ok v) :
    ∃ r, l.filterM p = .ok r := by
  have aux : ∀ (l acc : List α), (∀ s ∈ l, ∃ v, p s = .ok v) → ∃ r, l.filterAuxM p acc = .ok r := by
    intro l
    induction l with
    | nil => exact fun acc _ => ⟨acc, rfl⟩
    | cons x l ih =>
      intro acc h
      obtain ⟨v, hv⟩ := h x (by simp)
      rw [List.filterAuxM, hv]
      exact ih _ fun s hs => h s (by simp [hs])
  obtain ⟨r, hr⟩ := aux l [] h
  refine ⟨r.reverse, ?_⟩
  unfold List.filterM
  rw [hr]
  rfl

end Postpic.Species
