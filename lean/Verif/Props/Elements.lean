import Verif.Props.Species
import Verif.Spec.Elements
import Mathlib.Tactic.NormNum
import Mathlib.Algebra.Order.Ring.Abs
import Mathlib.Tactic.Linarith

/-!
# C93: masses and charges of known species
-/

set_option autoImplicit false

namespace Postpic.Props

open Postpic Postpic.Species Postpic.Spec

/-- Elements which the table misses or has with another mass. -/
def wrongElements : List String := ["Fe", "Kr", "Rb", "Tc", "Sn", "Te", "Re"]

theorem weights_known : ∀ p ∈ atomicWeights, p.1 ∉ wrongElements →
    ∃ m, massOf p.1 = some m ∧ |m - p.2| ≤ p.2 / 500 := by
  have h : ∀ p ∈ atomicWeights, p.1 ∉ wrongElements →
      (massOf p.1).any (fun m => decide (|m - p.2| ≤ p.2 / 500)) = true := by decide +kernel
  intro p hp hw
  have := h p hp hw
  cases hm : massOf p.1 with
  | none => rw [hm] at this; cases this
  | some m =>
    rw [hm] at this
    exact ⟨m, rfl, by simpa using this⟩

/-- The text after the last underscore. -/
def lastWord (t : List Char) : List Char := (t.reverse.takeWhile (· != '_')).reverse

theorem lastWord_prefix (ws : List (List Char)) (t : List Char) (ht : '_' ∉ t) : lastWord (prefixText ws ++ t) = t := by
  have hall : ∀ c ∈ t.reverse, (c != '_') = true := by
    intro c hc
    rw [bne_iff_ne]
    rintro rfl
    exact ht (List.mem_reverse.1 hc)
  induction ws with
  | nil =>
    unfold lastWord
    rw [prefixText, List.nil_append]
    have := List.takeWhile_append_of_pos (l₂ := []) hall
    rw [List.append_nil, List.takeWhile_nil, List.append_nil] at this
    rw [this, List.reverse_reverse]
  | cons w ws ih =>
    unfold lastWord at ih ⊢
    rw [prefixText, List.append_assoc, List.cons_append]
    by_cases hn : ws = []
    · subst hn
      rw [prefixText, List.nil_append, List.reverse_append, List.reverse_cons, List.append_assoc,
        List.takeWhile_append_of_pos hall]
      simp
    · obtain ⟨pre, hpre⟩ : ∃ pre, prefixText ws = pre ++ ['_'] := by
        clear ih
        induction ws with
        | nil => exact absurd rfl hn
        | cons v vs ihv =>
          by_cases hv : vs = []
          · exact ⟨v, by rw [hv]; simp [prefixText]⟩
          · obtain ⟨p, hp⟩ := ihv hv
            exact ⟨v ++ '_' :: p, by rw [prefixText, hp]; simp⟩
      rw [hpre, List.reverse_append, List.reverse_cons, List.reverse_append, List.reverse_append, List.append_assoc,
        List.append_assoc, List.takeWhile_append_of_pos hall]
      simp

/-- No known name is the symbol of an element followed by digits, after any prefixes. -/
theorem element_not_default {cl : Classes} (hcl : Classes.Ok cl) (ws : List (List Char)) (sym : String) (w : ℚ)
    (hs : (sym, w) ∈ atomicWeights) (d : List Char) (hd : Digits cl d) :
    defaults.lookup (String.ofList (prefixText ws ++ (sym.toList ++ d))) = none := by
  have key : ∀ p ∈ atomicWeights, ∀ e ∈ defaults,
      (p.1.toList.isPrefixOf (lastWord e.1.toList) = true →
        (((lastWord e.1.toList).drop p.1.toList.length).head?.any fun c => isLow c || isUp c) = true) := by
    decide +kernel
  have hund : ∀ p ∈ atomicWeights, '_' ∉ p.1.toList := by decide +kernel
  rw [List.lookup_eq_none_iff]
  intro e he
  rw [bne_iff_ne]
  intro heq
  have h1 : e.1.toList = prefixText ws ++ (sym.toList ++ d) := by rw [← heq, String.toList_ofList]
  have h0 : lastWord e.1.toList = sym.toList ++ d := by
    rw [h1]
    apply lastWord_prefix
    intro h
    rcases List.mem_append.1 h with h | h
    · exact hund (sym, w) hs h
    · have := hd _ h
      rw [(hcl.letter '_' (Or.inr (Or.inr rfl))).2] at this
      cases this
  have h2 := key (sym, w) hs e he (by rw [h0]; simp)
  rw [h0, List.drop_left] at h2
  cases d with
  | nil => cases h2
  | cons c d =>
    have h3 := hd c (by simp)
    have h4 : isLow c = true ∨ isUp c = true := by simpa using h2
    rw [digit_letter hcl c h4] at h3
    cases h3

/-- C93: the symbol of an element (1 to 92) followed by the charge, after any prefixes, is an ion with this charge and
the mass of the element, in units of the proton mass, to 0.2 percent. Partial: seven elements are missing or have
another mass, and the atomic mass unit is smaller (`element_missing_violated`, `element_mass_violated`,
`element_unit_violated`). -/
theorem element_mass_partial (cl : Classes) (hcl : Classes.Ok cl) (species : String) (ws : List (List Char))
    (hws : Words ws) (sym : String) (w : ℚ) (hs : (sym, w) ∈ atomicWeights) (hw : sym ∉ wrongElements) (d : List Char)
    (hd : Digits cl d) (hname : underscores species = prefixText ws ++ (sym.toList ++ d)) :
    ∃ r mass, identify cl species = .ok r ∧ Says r mass (decimal cl d) true ∧ Flags r species ws ∧
      |mass - w * protonMass| ≤ w * protonMass / 500 := by
  obtain ⟨m, hm, hmw⟩ := weights_known (sym, w) hs hw
  obtain ⟨r, h1, h2, h3⟩ := species_element cl hcl species ws hws sym.toList d [] 0 m
    (by rw [hname]; simp [pluses]) (by rw [hname]; exact element_not_default hcl ws sym w hs d hd)
    (by rw [String.ofList_toList]; exact hm) hd (by intro c hc; cases hc) (fun _ _ _ c hc => by cases hc)
    (by intro _ c hc; cases hc) (by decide) (by decide)
  refine ⟨r, m * (18362 / 10), h1, ?_, h3, ?_⟩
  · have : (if decimal cl d = 0 then ((0 : ℕ) : ℚ) else decimal cl d) = decimal cl d := by
      split
      · next h => rw [h]
      · rfl
    rwa [this] at h2
  · have : protonMass = 18362 / 10 := by norm_num [protonMass]
    rw [this, ← sub_mul, abs_mul, abs_of_pos (show (0 : ℚ) < 18362 / 10 by norm_num)]
    calc |m - w| * (18362 / 10) ≤ w / 500 * (18362 / 10) := by
          apply mul_le_mul_of_nonneg_right hmw; norm_num
      _ = w * (18362 / 10) / 500 := by ring

example : ∃ r mass, identify ascii "ejected_tracer/Au10" = .ok r ∧ Says r mass 10 true ∧
    Flags r "ejected_tracer/Au10" ["ejected".toList, "tracer".toList] ∧
    |mass - 196.97 * protonMass| ≤ 196.97 * protonMass / 500 :=
  element_mass_partial ascii ascii_ok "ejected_tracer/Au10" ["ejected".toList, "tracer".toList] (by unfold Words; decide) "Au" 196.97
    (by decide +kernel) (by decide) "10".toList (by unfold Digits; decide) (by decide +kernel)

/-- C93: iron, tin and rhenium are not known. -/
theorem element_missing_violated : ∀ s ∈ ["Fe1", "Sn1", "Re1"], identify ascii s = .error .keyError :=
  fun s hs => species_elements_violated s (by
    simp only [List.mem_cons, List.not_mem_nil, or_false] at hs ⊢
    tauto)

/-- The mass in the answer. -/
def massIn (r : Res Dict) : Option ℚ :=
  match r with
  | .ok d => match d "mass" with
    | some (.num m) => some m
    | _ => none
  | .error _ => none

theorem massIn_says {s : String} {r : Dict} {mass q : ℚ} {i : Bool} (h : identify ascii s = .ok r) (hs : Says r mass q i) :
    massIn (identify ascii s) = some mass := by
  rw [h]
  unfold massIn
  simp only [hs.1]

/-- C93: krypton, rubidium, technetium and tellurium get a mass which is wrong by more than half a percent, in the unit
of the table. -/
theorem element_mass_violated : ∀ p ∈ [("Kr", 83.798), ("Rb", 85.468), ("Tc", 97.907), ("Te", 127.60)],
    p ∈ atomicWeights ∧ ∀ r mass q i, identify ascii (p.1 ++ "1") = .ok r → Says r mass q i →
      p.2 * protonMass / 200 < |mass - p.2 * protonMass| := by
  have h : ∀ p ∈ [("Kr", (83.798 : ℚ)), ("Rb", 85.468), ("Tc", 97.907), ("Te", 127.60)], p ∈ atomicWeights ∧
      (massIn (identify ascii (p.1 ++ "1"))).all
        (fun mass => decide (p.2 * protonMass / 200 < |mass - p.2 * protonMass|)) = true := by
    decide +kernel
  intro p hp
  refine ⟨(h p hp).1, fun r mass q i h1 h2 => ?_⟩
  have := (h p hp).2
  rw [massIn_says h1 h2] at this
  simpa using this

/-- C93: the weights are multiplied with the mass of the proton instead of the atomic mass unit, so every ion is too
heavy by more than half a percent, even where the weight is right. -/
theorem element_unit_violated : ∀ p ∈ atomicWeights, p.1 ∉ wrongElements → ∀ r mass q i,
    identify ascii (p.1 ++ "1") = .ok r → Says r mass q i →
      p.2 * atomicMassUnit / 200 < mass - p.2 * atomicMassUnit := by
  have h : ∀ p ∈ atomicWeights, p.1 ∉ wrongElements →
      (massIn (identify ascii (p.1 ++ "1"))).all
        (fun mass => decide (p.2 * atomicMassUnit / 200 < mass - p.2 * atomicMassUnit)) = true := by
    decide +kernel
  intro p hp hw r mass q i h1 h2
  have := h p hp hw
  rw [massIn_says h1 h2] at this
  simpa using this

/-- C93: the species with names of their own have the charge in their name and the mass of their nucleons. -/
theorem named_species (cl : Classes) :
    (∀ p ∈ namedIons, ∃ r, identify cl p.1 = .ok r ∧ Says r (p.2.1 * protonMass) p.2.2 true) ∧
    (∀ p ∈ namedLight, ∃ r, identify cl p.1 = .ok r ∧ Says r p.2.1 p.2.2 false) := by
  constructor
  · have h : ∀ p ∈ namedIons, defaults.lookup (String.ofList (underscores p.1)) =
        some ⟨p.2.1 * protonMass, p.2.2, true⟩ := by decide +kernel
    intro p hp
    obtain ⟨r, h1, h2, -⟩ := species_default cl p.1 _ (h p hp)
    exact ⟨r, h1, h2⟩
  · have h : ∀ p ∈ namedLight, defaults.lookup (String.ofList (underscores p.1)) =
        some ⟨p.2.1, p.2.2, false⟩ := by decide +kernel
    intro p hp
    obtain ⟨r, h1, h2, -⟩ := species_default cl p.1 _ (h p hp)
    exact ⟨r, h1, h2⟩

example : ∃ r, identify ascii "gold20" = .ok r ∧ Says r (((197 : ℕ) : ℚ) * protonMass) ((20 : ℤ) : ℚ) true :=
  (named_species ascii).1 ("gold20", 197, 20) (by decide)

end Postpic.Props
