import Mathlib.Data.List.Nodup
import Mathlib.Data.List.Perm.Subperm
import Verif.Spec.Plotter

/-!
# Lemmas about names of figures
-/

set_option autoImplicit false

namespace Postpic.Plot

open Postpic

theorem decimal_inj {m n : ℕ} (h : decimal m = decimal n) : m = n := by
  have h1 := Nat.ofDigitChars_toDigits (n := m) (b := 10) (by decide) (by decide)
  have h2 := Nat.ofDigitChars_toDigits (n := n) (b := 10) (by decide) (by decide)
  unfold decimal at h
  rw [← h1, h, h2]

theorem decimal_digit {n : ℕ} {c : Char} (h : c ∈ decimal n) : c.isDigit = true :=
  Nat.isDigit_of_mem_toDigits (by decide) (by decide) h

theorem decimal_split {m n : ℕ} {a b : List Char} (h : decimal m ++ '_' :: a = decimal n ++ '_' :: b) : m = n := by
  have key : ∀ (n : ℕ) (b : List Char), (decimal n ++ '_' :: b).takeWhile (· ≠ '_') = decimal n := by
    intro n b
    rw [List.takeWhile_append_of_pos]
    · simp
    · intro c hc
      have := decimal_digit hc
      simp only [ne_eq, decide_not, Bool.not_eq_eq_eq_not, Bool.not_true, decide_eq_false_iff_not]
      rintro rfl
      revert this
      decide
  apply decimal_inj
  rw [← key m a, ← key n b, h]

theorem cleanName_append (a b : List Char) : cleanName (a ++ b) = cleanName a ++ cleanName b := by
  simp [cleanName]

theorem cleanName_under (a : List Char) : cleanName ('_' :: a) = '_' :: cleanName a := by
  simp [cleanName]

theorem cleanName_decimal (n : ℕ) : cleanName (decimal n) = decimal n := by
  have h : ∀ l : List Char, (∀ c ∈ l, c.isDigit = true) → cleanName l = l := by
    intro l
    induction l with
    | nil => intro _; rfl
    | cons c l ih =>
      intro hl
      have hc := hl c (by simp)
      have h1 : c ≠ '/' := by rintro rfl; revert hc; decide
      have h2 : c ≠ ' ' := by rintro rfl; revert hc; decide
      have := ih fun c hc => hl c (by simp [hc])
      unfold cleanName at this ⊢
      simp only [List.map_cons, if_neg h1]
      rw [List.filter_cons_of_pos (by simpa using h2), this]
  exact h _ fun c => decimal_digit

/-- What the names of a plotter with one reader have in common. -/
def Plotter.start (p : Plotter) (reader : List Char) : List Char :=
  p.outdir ++ (cleanName p.project ++ '_' :: (cleanName reader ++ ['_']))

theorem baseName_eq (p : Plotter) (c : SaveCall) :
    p.baseName c = p.start c.reader ++ (decimal p.used.length ++ '_' :: cleanName c.key) := by
  simp [Plotter.baseName, Plotter.start, cleanName_append, cleanName_under, cleanName_decimal]

theorem cleanName_percent {l : List Char} (h : '%' ∉ l) : '%' ∉ cleanName l := by
  intro hc
  simp only [cleanName, List.mem_filter, List.mem_map] at hc
  obtain ⟨⟨c, h1, h2⟩, _⟩ := hc
  split_ifs at h2 with h3
  · exact absurd h2 (by decide)
  · subst h2; exact h h1

/-- The candidates of the loop. -/
def candidate (base : List Char) (j : ℕ) : List Char := if j = 0 then base else base ++ '_' :: decimal j

theorem candidate_inj {base : List Char} {i j : ℕ} (h : candidate base i = candidate base j) : i = j := by
  unfold candidate at h
  split_ifs at h with h1 h2 h2
  · omega
  · have := congrArg List.length h
    simp at this
  · have := congrArg List.length h
    simp at this
  · have := List.append_cancel_left h
    simp only [List.cons.injEq, true_and] at this
    exact decimal_inj this

theorem freeName_spec (used : List (List Char)) (base : List Char) (hb : '%' ∉ base) (fuel i : ℕ) :
    (freeName used base fuel i (candidate base i) = none ∧ ∀ j, i ≤ j → j ≤ i + fuel → candidate base j ∈ used) ∨
    ∃ j, freeName used base fuel i (candidate base i) = some (.ok (candidate base j)) ∧ candidate base j ∉ used := by
  induction fuel generalizing i with
  | zero =>
    unfold freeName
    by_cases h : candidate base i ∈ used
    · left
      rw [if_pos h]
      refine ⟨rfl, fun j h1 h2 => ?_⟩
      obtain rfl : j = i := by omega
      exact h
    · right
      rw [if_neg h]
      exact ⟨i, rfl, h⟩
  | succ fuel ih =>
    unfold freeName
    by_cases h : candidate base i ∈ used
    · rw [if_pos h]
      have hn : numberedName base (i + 1) = .ok (candidate base (i + 1)) := by
        unfold numberedName candidate
        rw [if_neg hb, if_neg (by omega)]
      simp only [hn]
      rcases ih (i + 1) with ⟨h1, h2⟩ | h1
      · left
        refine ⟨h1, fun j h3 h4 => ?_⟩
        rcases Nat.lt_or_ge i j with h5 | h5
        · exact h2 j (by omega) (by omega)
        · obtain rfl : j = i := by omega
          exact h
      · right
        exact h1
    · right
      rw [if_neg h]
      exact ⟨i, rfl, h⟩

theorem freeName_ok (used : List (List Char)) (base : List Char) (hb : '%' ∉ base) (fuel : ℕ) (hf : used.length ≤ fuel) :
    ∃ name, freeName used base fuel 0 base = some (.ok name) ∧ name ∉ used := by
  rcases freeName_spec used base hb fuel 0 with ⟨_, h⟩ | ⟨j, h1, h2⟩
  · exfalso
    have h1 : ((List.range (fuel + 1)).map (candidate base)).Nodup :=
      List.Nodup.map_on (fun _ _ _ _ h => candidate_inj h) List.nodup_range
    have h2 : (List.range (fuel + 1)).map (candidate base) ⊆ used := by
      intro x hx
      obtain ⟨j, hj, rfl⟩ := List.mem_map.1 hx
      have := List.mem_range.1 hj
      exact h j (by omega) (by omega)
    have := (h1.subperm h2).length_le
    simp at this
    omega
  · exact ⟨_, h1, h2⟩

theorem freeName_free {used : List (List Char)} {base : List Char} (h : base ∉ used) (fuel : ℕ) :
    freeName used base fuel 0 base = some (.ok base) := by
  unfold freeName
  rw [if_neg h]

end Postpic.Plot
