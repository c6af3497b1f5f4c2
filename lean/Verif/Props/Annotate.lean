import Mathlib.Tactic.Linarith
import Mathlib.Tactic.Push
import Mathlib.Tactic.Ring
import Mathlib.Tactic.FieldSimp
import Mathlib.Algebra.Order.Ring.Abs
import Verif.Spec.Annotate

/-!
# C102: the texts in figures
-/

set_option autoImplicit false

namespace Postpic.Props

open Postpic Postpic.Plot Postpic.Spec

/-- Rounding moves a number by at most one half. -/
theorem roundEven_near (x : ℚ) (hx : 0 ≤ x) : |(roundEven x : ℚ) - x| ≤ 1 / 2 := by
  have h0 : 0 ≤ ⌊x⌋ := Int.floor_nonneg.2 hx
  have h1 : ((⌊x⌋.toNat : ℕ) : ℚ) = (⌊x⌋ : ℚ) := by
    have := Int.toNat_of_nonneg h0
    exact_mod_cast this
  have h2 := Int.floor_le x
  have h3 := Int.lt_floor_add_one x
  unfold roundEven
  simp only
  rw [h1]
  split_ifs with h
  · push_cast
    rw [h1, abs_le]
    rcases h with h | h
    · constructor <;> linarith
    · constructor <;> linarith [h.1]
  · rw [h1, abs_le]
    have h4 := not_or.1 h
    have h5 := not_lt.1 h4.1
    constructor <;> linarith

theorem roundEven_int (n : ℕ) : roundEven (n : ℚ) = n := by
  unfold roundEven
  have : ⌊(n : ℚ)⌋.toNat = n := by simp
  simp [this]

theorem digits_all (n : ℕ) : ∀ ch ∈ Nat.toDigits 10 n, ch.isDigit = true := fun _ h =>
  Nat.isDigit_of_mem_toDigits (by decide) (by decide) h

/-- A number with one digit after the point. -/
theorem format1f_reads (x : ℚ) : ∃ v, ReadsAs (format1f x) v ∧ |v - x| ≤ 1 / 20 := by
  have hn := roundEven_near (|x| * 10) (by positivity)
  set n := roundEven (|x| * 10) with hdef
  obtain ⟨b, hb⟩ : ∃ b : Char, Nat.toDigits 10 (n % 10) = [b] := by
    exact ⟨_, Nat.toDigits_of_lt_base (Nat.mod_lt _ (by omega))⟩
  have hval : (n : ℚ) / 10 = ((Nat.ofDigitChars 10 (Nat.toDigits 10 (n / 10)) 0 : ℕ) : ℚ) + ((Nat.ofDigitChars 10 [b] 0 : ℕ) : ℚ) / 10 := by
    rw [← hb, Nat.ofDigitChars_ten_toDigits, Nat.ofDigitChars_ten_toDigits]
    have := Nat.div_add_mod n 10
    have h2 : ((10 * (n / 10) + n % 10 : ℕ) : ℚ) = n := by rw [this]
    push_cast at h2
    linarith
  refine ⟨(if x < 0 then -1 else 1) * ((n : ℚ) / 10), ⟨decide (x < 0), Nat.toDigits 10 (n / 10), b, Nat.toDigits_ne_nil, digits_all _,
    ?_, ?_, ?_⟩, ?_⟩
  · exact digits_all (n % 10) b (by rw [hb]; simp)
  · unfold format1f signOf
    simp only [← hdef, hb, decide_eq_true_eq]
  · rw [hval]; simp
  · rw [abs_le] at hn ⊢
    split_ifs with h
    · rw [abs_of_neg h] at hn
      constructor <;> linarith [hn.1, hn.2]
    · rw [abs_of_nonneg (not_lt.1 h)] at hn
      constructor <;> linarith [hn.1, hn.2]

theorem format60f_reads (n : ℤ) : ReadsInt (format60f n) n := by
  have hr : roundEven |(n : ℚ)| = n.natAbs := by
    have : |(n : ℚ)| = ((n.natAbs : ℕ) : ℚ) := by
      rw [Nat.cast_natAbs]
      simp
    rw [this, roundEven_int]
  refine ⟨6 - (signOf n ++ Nat.toDigits 10 n.natAbs).length, decide (n < 0), Nat.toDigits 10 n.natAbs, Nat.toDigits_ne_nil, digits_all _, ?_, ?_⟩
  · unfold format60f
    rw [hr]
    unfold List.leftpad signOf
    simp
  · rw [Nat.ofDigitChars_ten_toDigits]
    by_cases h : n < 0
    · simp only [h, decide_true, if_true]; omega
    · simp only [h, decide_false, Bool.false_eq_true, if_false]; omega

/-- The text which is shown, if any. -/
def shown : Option (List Char) → List (List Char)
  | none => []
  | some [] => []
  | some (a :: l) => [a :: l]

theorem shown_some (l : List Char) (h : l ≠ []) : shown (some l) = [l] := by
  cases l with
  | nil => exact absurd rfl h
  | cons a l => rfl

theorem setOne_some (p : Place) (l : List Char) (h : l ≠ []) : setOne p (some l) = [(p, l)] := by
  cases l with
  | nil => exact absurd rfl h
  | cons a l => rfl

theorem textsAt_append (s t : Texts) (p : Place) : textsAt (s ++ t) p = textsAt s p ++ textsAt t p := by
  simp [textsAt]

theorem textsAt_setOne (p q : Place) (o : Option (List Char)) : textsAt (setOne q o) p = if q = p then shown o else [] := by
  rcases o with _ | _ | ⟨a, l⟩
  · simp [textsAt, setOne, shown]
  · simp [textsAt, setOne, shown]
  · by_cases h : q = p
    · simp [textsAt, setOne, shown, h]
    · simp [textsAt, setOne, h]

/-- What `annotate` shows at each place. -/
theorem textsAt_annotate (b : Bool) (a : Notes) (p : Place) : textsAt (annotate b a) p = shown (match p with
    | .title => a.title
    | .ur => some (timeText a.time ++ stepText a.step)
    | .ur2 => a.infostring
    | .ul => a.project
    | .ul2 => a.dump
    | .center => centerText a.infos) := by
  cases b <;> cases p <;>
    simp [annotate, settextAx, settextFig, textsAt_append, textsAt_setOne]

/-- C102: the figure shows the time of the dump in femtoseconds, rounded to one digit after the point, its step, its name and the project, each
once and nothing else. Partial: neither time nor step is 0, and the time is a float; see `figure_time_violated`. -/
theorem figure_texts_partial (project name : List Char) (hp : project ≠ []) (hn : name ≠ []) (t : ℚ) (ht : t ≠ 0) (step : ℤ) (hs : step ≠ 0)
    (f : FieldNotes) :
    ∃ (a : Annotated) (l s : List Char) (v : ℚ), plot2dTexts (some project) (.ok ⟨.float t, .int step, name⟩) f = .ok a ∧
      a.fig.Perm [(.ur, l ++ " fs, step: ".toList ++ s), (.ul2, name), (.ul, project)] ∧
      ReadsAs l v ∧ |v - t * 10 ^ 15| ≤ 1 / 20 ∧ ReadsInt s step := by
  obtain ⟨v, h1, h2⟩ := format1f_reads (1000000000000000 * t)
  refine ⟨_, format1f (1000000000000000 * t), format60f step, v, rfl, ?_, h1, ?_, format60f_reads step⟩
  · have e : ∀ p, setOne p none = [] := fun _ => rfl
    have e' : ∀ p, setOne p (some []) = [] := fun _ => rfl
    have e3 : format1f (1000000000000000 * t) ++ " fs".toList ++ (", step: ".toList ++ format60f step) =
        format1f (1000000000000000 * t) ++ " fs, step: ".toList ++ format60f step := by
      rw [List.append_assoc, List.append_assoc, ← List.append_assoc " fs".toList]
      rfl
    simp only [annotate, settextFig, timeText, stepText, if_neg ht, if_neg hs, centerText, e, e', List.append_nil, List.nil_append,
      Bool.false_eq_true, if_false]
    rw [e3, setOne_some .ur _ (by simp), setOne_some _ _ hn, setOne_some _ _ hp]
    exact List.Perm.refl _
  · rw [show t * 10 ^ 15 = 1000000000000000 * t by ring]
    exact h2

example := figure_texts_partial "p".toList "7".toList (by decide) (by decide) (1 / 1000000000000000) (by norm_num) 7 (by norm_num)
  ⟨2, "Ex".toList, [], []⟩

/-- C102 fails for the dump at the time 0: whatever the step is, no time is shown, and for the step 0 no step. -/
theorem figure_time_violated (project : List Char) (name : List Char) (step : ℤ) (f : FieldNotes) :
    ∃ a b : Annotated,
      plot2dTexts (some project) (.ok ⟨.float 0, .int 0, name⟩) f = .ok a ∧ textsAt a.fig .ur = [] ∧
      plot2dTexts (some project) (.ok ⟨.float 0, .int step, name⟩) f = .ok b ∧
      (step ≠ 0 → ∃ s, ReadsInt s step ∧ textsAt b.fig .ur = [", step: ".toList ++ s]) := by
  refine ⟨_, _, rfl, ?_, rfl, ?_⟩
  · simp only [textsAt_append, textsAt_annotate]
    rfl
  · intro hs
    refine ⟨format60f step, format60f_reads step, ?_⟩
    simp only [textsAt_append, textsAt_annotate, timeText, stepText, if_true, if_neg hs]
    rfl

example := figure_time_violated "p".toList "7".toList 7 ⟨2, "Ex".toList, [], []⟩

/-- C102: the axes of a plot of a field with two dimensions show its label and infostring, and no two different texts at one place. -/
theorem axes_texts (project : Option (List Char)) (reader : ReaderNotes) (f : FieldNotes) :
    ∃ a : Annotated, plot2dTexts project (.ok reader) f = .ok a ∧
      (∀ p l l', l ∈ textsAt a.ax p → l' ∈ textsAt a.ax p → l = l') ∧
      (f.label ≠ [] → f.label ∈ textsAt a.ax .title) ∧ (f.infostring ≠ [] → f.infostring ∈ textsAt a.ax .ur2) := by
  refine ⟨_, rfl, ?_, ?_, ?_⟩
  · have hs : ∀ (o : Option (List Char)) (l : List Char), l ∈ shown o → o = some l := by
      intro o l h
      rcases o with _ | _ | ⟨a, m⟩
      · cases h
      · cases h
      · rw [List.mem_singleton.1 h]
    intro p l l' hl hl'
    simp only [textsAt_append, annotateFromField, textsAt_annotate] at hl hl'
    cases p with
    | title =>
      simp only [shown, List.append_nil] at hl hl'
      exact Option.some.inj ((hs _ _ hl).symm.trans (hs _ _ hl'))
    | ur => simp [shown, timeText, stepText] at hl
    | ur2 =>
      have h1 := (List.mem_append.1 hl).elim (hs _ _) (hs _ _)
      have h2 := (List.mem_append.1 hl').elim (hs _ _) (hs _ _)
      exact Option.some.inj (h1.symm.trans h2)
    | ul => simp [shown] at hl
    | ul2 => simp [shown] at hl
    | center =>
      simp only [shown, centerText, List.append_nil] at hl hl'
      exact Option.some.inj ((hs _ _ hl).symm.trans (hs _ _ hl'))
  · intro h
    simp [textsAt_append, annotateFromField, textsAt_annotate, shown_some _ h]
  · intro h
    simp [textsAt_append, annotateFromField, textsAt_annotate, shown_some _ h]

example := axes_texts none ⟨.float 1, .int 1, []⟩ ⟨2, "Ex".toList, "5 npart".toList, []⟩

/-- C102: a plot cannot be annotated without a reader, but the figure is made: a missing reader adds nothing. -/
theorem no_reader (project : Option (List Char)) (f : FieldNotes) :
    ∃ a : Annotated, plot2dTexts project (.error .attributeError) f = .ok a ∧
      ∀ q ∈ a.fig, q.1 = .ul ∧ some q.2 = project := by
  refine ⟨_, rfl, fun q hq => ?_⟩
  rcases project with _ | _ | ⟨a, l⟩
  · cases hq
  · cases hq
  · have : q = (.ul, a :: l) := by simpa [annotate, settextFig, setOne, timeText, stepText, centerText] using hq
    rw [this]
    exact ⟨rfl, rfl⟩

example := no_reader (some "p".toList) ⟨2, "Ex".toList, "5 npart".toList, []⟩

/-- C102 fails for lines: three different texts are drawn at one place for every field with an infostring. -/
theorem lines_texts_violated (project : Option (List Char)) (reader : ReaderNotes) (label info : List Char) (hi : info ≠ []) :
    ∃ a : Annotated, plot1dTexts project (.ok reader) [⟨1, label, info, []⟩] = .ok a ∧
      textsAt a.ax .ur2 = [info, strList [info], strList [info]] ∧ info ≠ strList [info] := by
  refine ⟨_, rfl, ?_, ?_⟩
  · have h2 : shown (some (strList [info])) = [strList [info]] := rfl
    simp [textsAt_append, annotateFromField, textsAt_annotate, shown_some _ hi, h2]
  · intro h
    have := congrArg List.length h
    simp [strList] at this
    omega

example := lines_texts_violated none ⟨.float 1, .int 1, []⟩ [] "5 npart".toList (by decide)

end Postpic.Props
