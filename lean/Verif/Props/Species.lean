import Verif.Lemmas.Species

/-!
# C48: species names

Names are decoded from the prefix, the symbol or mass and charge, and the suffix.
-/

set_option autoImplicit false

namespace Postpic.Props

open Postpic Postpic.Species Postpic.Spec

/-- Word characters and digits of ASCII. -/
def ascii : Classes where
  word c := decide (('a' ≤ c ∧ c ≤ 'z') ∨ ('A' ≤ c ∧ c ≤ 'Z') ∨ ('0' ≤ c ∧ c ≤ '9') ∨ c = '_')
  digit c := if '0' ≤ c ∧ c ≤ '9' then some (c.toNat - 48) else none

theorem ascii_ok : Classes.Ok ascii where
  digit := by
    intro k hk
    have : ∀ k : Fin 10, ascii.digit (Char.ofNat (48 + k.val)) = some k.val := by decide
    exact this ⟨k, hk⟩
  letter := by
    intro c hc
    constructor
    · simp only [ascii, decide_eq_true_eq]
      tauto
    · simp only [ascii]
      rw [if_neg]
      rintro ⟨h1, h2⟩
      rcases hc with h | h | h
      · exact absurd (Char.le_trans h.1 h2) (by decide)
      · exact absurd (Char.le_trans h.1 h2) (by decide)
      · subst h
        exact absurd h2 (by decide)
  newline := by decide
  digit_word := by
    intro c hc
    simp only [ascii] at hc ⊢
    split_ifs at hc with h
    · simp [h]
    · cases hc

/-- The error of a refused name. -/
def refusal : Res Dict → Option Err
  | .ok _ => none
  | .error e => some e

theorem refused {r : Res Dict} {e : Err} (h : refusal r = some e) : r = .error e := by
  cases r with
  | ok d => cases h
  | error x =>
    cases h
    rfl

/-- A name in the table of known names has the mass, the charge and the kind of the table. -/
theorem species_default (cl : Classes) (species : String) (e : SpecDict)
    (h : defaults.lookup (String.ofList (underscores species)) = some e) :
    ∃ d, identify cl species = .ok d ∧ Says d e.mass e.charge e.ision ∧
      ∀ key, key ≠ "mass" → key ≠ "charge" → key ≠ "ision" → d key =
        if key = "tracer" ∨ key = "ejected" then some (.bool false)
        else if key = "name" then some (.str species) else none := by
  refine ⟨put (start species) e.mass e.charge e.ision, ?_, put_says _ _ _ _, ?_⟩
  · unfold identify
    simp only [h]
    rfl
  · intro key h1 h2 h3
    rw [put_other _ _ _ _ _ h1 h2 h3]
    rfl

example : defaults.lookup (String.ofList (underscores "bw/positron")) = some ⟨1, 1, false⟩ := by
  decide +kernel

/-- The symbol of an element followed by its charge state: after any prefix, and before any suffix
which does not continue the symbol or the number or begin with `Plus` or the word for electron, the
name means the ion with the mass of the element and this charge. The charge may be written by
repeating `Plus`. -/
theorem species_element (cl : Classes) (hcl : Classes.Ok cl) (species : String)
    (ws : List (List Char)) (hw : Words ws) (sym d su : List Char) (k : ℕ) (m : ℚ)
    (hname : underscores species = prefixText ws ++ (sym ++ d ++ (pluses k ++ su)))
    (hdef : defaults.lookup (String.ofList (underscores species)) = none)
    (hm : massOf (String.ofList sym) = some m) (hd : Digits cl d) (hsu : Plain cl su)
    (hlow : d = [] → k = 0 → sym.length = 1 → NotFirst isLow su)
    (hdig : k = 0 → NotFirst (fun c => (cl.digit c).isSome) su)
    (hplus : ¬ "Plus".toList <+: su) (hel : ∀ w ∈ electronWords, ¬ w <+: su) :
    ∃ r, identify cl species = .ok r ∧
      Says r (m * (18362 / 10)) (if decimal cl d = 0 then (k : ℚ) else decimal cl d) true ∧
      Flags r species ws := by
  obtain ⟨hc, ht⟩ := core_elem hcl sym d (pluses k ++ su) m hm hd
    (fun h1 h2 => pluses_notFirst (by decide) k su fun hk => hlow h1 hk h2)
    (pluses_notFirst (by rw [digit_letter hcl 'P' (by decide)]; rfl) k su hdig)
  have hg := groups_of hcl ws hw _ _ [] su k ht hc hplus (Or.inr ⟨rfl, hel⟩) hsu
  rw [List.nil_append, ← hname] at hg
  refine ⟨_, identify_put cl species ws _ k _ _ _ hdef hg (setCore_elem cl sym d m hm), ?_,
    put_flags species ws (fun w h => (hw w h).1) _ _ _⟩
  have : (if decimal cl d = 0 then (k : ℚ) else decimal cl d) =
      if (decimal cl d : ℚ) = 0 then (k : ℚ) else decimal cl d := by
    by_cases h : decimal cl d = 0
    · simp [h]
    · rw [if_neg h, if_neg (by exact_mod_cast h)]
  rw [this]
  exact put_says _ _ _ _

/-- `tracer_ejected/Au20b`: a gold ion of charge 20. -/
example : ∃ r, identify ascii "tracer_ejected/Au20b" = .ok r ∧
    Says r (196967 / 1000 * (18362 / 10)) 20 true ∧
    Flags r "tracer_ejected/Au20b" ["tracer".toList, "ejected".toList] := by
  have := species_element ascii ascii_ok "tracer_ejected/Au20b" ["tracer".toList, "ejected".toList]
    (by unfold Words; decide) "Au".toList "20".toList "b".toList 0 (196967 / 1000) (by decide +kernel)
    (by decide +kernel) (by decide +kernel) (by unfold Digits; decide) (by unfold Plain; decide)
    (by intro h; cases h) (by intro _ c hc; simp at hc; subst hc; decide) (by decide +kernel)
    (by decide +kernel)
  simpa [decimal, show ascii.digit '2' = some 2 from rfl, show ascii.digit '0' = some 0 from rfl]
    using this

/-- `CPlusPlus`: a carbon ion of charge two. -/
example : ∃ r, identify ascii "CPlusPlus" = .ok r ∧
    Says r (12011 / 1000 * (18362 / 10)) 2 true ∧ Flags r "CPlusPlus" [] := by
  have := species_element ascii ascii_ok "CPlusPlus" [] (by unfold Words; decide) "C".toList [] [] 2
    (12011 / 1000) (by decide +kernel) (by decide +kernel) (by decide +kernel)
    (by unfold Digits; decide) (by unfold Plain; decide) (by intro _ h; cases h) (by intro h; cases h)
    (by decide +kernel) (by decide +kernel)
  simpa [decimal] using this

/-- Mass and charge written as numbers: `ionm#c#` and `ionc#m#`, after any prefix and before any
suffix which does not continue the number or begin with `Plus` or the word for electron. -/
theorem species_ion (cl : Classes) (hcl : Classes.Ok cl) (species : String)
    (ws : List (List Char)) (hw : Words ws) (m q su : List Char) (hm : m ≠ []) (hq : q ≠ [])
    (dm : Digits cl m) (dq : Digits cl q) (hsu : Plain cl su)
    (hname : underscores species = prefixText ws ++ ("ionm".toList ++ m ++ 'c' :: q ++ su) ∨
      underscores species = prefixText ws ++ ("ionc".toList ++ q ++ 'm' :: m ++ su))
    (hdef : defaults.lookup (String.ofList (underscores species)) = none)
    (hdig : NotFirst (fun c => (cl.digit c).isSome) su)
    (hplus : ¬ "Plus".toList <+: su) (hel : ∀ w ∈ electronWords, ¬ w <+: su) :
    ∃ r, identify cl species = .ok r ∧
      Says r (decimal cl m * (18362 / 10)) (decimal cl q) true ∧ Flags r species ws := by
  have hg : (nameRx cl (underscores species)).head? = some ⟨prefixText ws, .ionmc m q, pluses 0, []⟩
      := by
    rcases hname with hname | hname
    · rw [hname]
      exact groups_of hcl ws hw (.ionmc m q) ("ionm".toList ++ m ++ 'c' :: q) [] su 0
        ⟨dm, dq, hm, hq, Or.inr rfl⟩ (core_ionm hcl m q su hm hq dm dq hdig) hplus
        (Or.inr ⟨rfl, hel⟩) hsu
    · rw [hname]
      exact groups_of hcl ws hw (.ionmc m q) ("ionc".toList ++ q ++ 'm' :: m) [] su 0
        ⟨dm, dq, hm, hq, Or.inl rfl⟩ (core_ionc hcl m q su hm hq dm dq hdig) hplus
        (Or.inr ⟨rfl, hel⟩) hsu
  refine ⟨_, identify_put cl species ws _ 0 _ _ _ hdef hg (setCore_ion cl m q), ?_,
    put_flags species ws (fun w h => (hw w h).1) _ _ _⟩
  have : (if (decimal cl q : ℚ) = 0 then ((0 : ℕ) : ℚ) else decimal cl q) = decimal cl q := by
    split_ifs with h
    · rw [h]; rfl
    · rfl
  rw [this]
  exact put_says _ _ _ _

/-- The documented example `ejected_tracer_ionc5m20b`. -/
example : ∃ r, identify ascii "ejected_tracer_ionc5m20b" = .ok r ∧
    Says r (20 * (18362 / 10)) 5 true ∧
    Flags r "ejected_tracer_ionc5m20b" ["ejected".toList, "tracer".toList] := by
  have := species_ion ascii ascii_ok "ejected_tracer_ionc5m20b" ["ejected".toList, "tracer".toList]
    (by unfold Words; decide) "20".toList "5".toList "b".toList (by decide) (by decide)
    (by unfold Digits; decide) (by unfold Digits; decide) (by unfold Plain; decide)
    (Or.inr (by decide +kernel)) (by decide +kernel)
    (by intro c hc; simp at hc; subst hc; decide) (by decide +kernel) (by decide +kernel)
  simpa [decimal, show ascii.digit '2' = some 2 from rfl, show ascii.digit '0' = some 0 from rfl,
    show ascii.digit '5' = some 5 from rfl] using this

/-- The word for electron, alone or behind an element with its charge state, means electrons,
whatever the prefix and the suffix are. -/
theorem species_electron (cl : Classes) (hcl : Classes.Ok cl) (species : String)
    (ws : List (List Char)) (hw : Words ws) (w su : List Char) (hword : w ∈ electronWords)
    (hsu : Plain cl su)
    (hname : underscores species = prefixText ws ++ (w ++ su) ∨
      ∃ sym d k m, underscores species = prefixText ws ++ (sym ++ d ++ (pluses k ++ (w ++ su))) ∧
        massOf (String.ofList sym) = some m ∧ Digits cl d ∧
        (sym.length = 1 → d = [] → k = 0 → w.head? = some 'E'))
    (hdef : defaults.lookup (String.ofList (underscores species)) = none) :
    ∃ r, identify cl species = .ok r ∧ Says r 1 (-1) false ∧ Flags r species ws := by
  have hne : w ≠ [] := by
    rintro rfl
    simp [electronWords] at hword
  have hp : ¬ "Plus".toList <+: w ++ su := by
    simp only [electronWords, List.mem_cons, List.not_mem_nil, or_false] at hword
    rcases hword with rfl | rfl | rfl | rfl <;>
    · rintro ⟨r, hr⟩
      simp at hr
  have key : ∃ c k, (nameRx cl (underscores species)).head? = some ⟨prefixText ws, c, pluses k, w⟩ ∧
      ((c = .none ∧ pluses k = []) ∨ ∃ m q i k', pluses k = pluses k' ∧ ∀ d, setCore cl c d =
        .ok (put d m q i)) := by
    rcases hname with hname | ⟨sym, d, k, m, hname, hm, hd, hs⟩
    · refine ⟨.none, 0, ?_, Or.inl ⟨rfl, rfl⟩⟩
      rw [hname]
      refine groups_of hcl ws hw .none [] w su 0 rfl ?_ hp (Or.inl hword) hsu
      refine core_nothing cl _ (elem_none _ ?_) ?_ ?_
      all_goals
        simp only [electronWords, List.mem_cons, List.not_mem_nil, or_false] at hword
        rcases hword with rfl | rfl | rfl | rfl
      · exact Or.inr ⟨'e' :: 'c' :: su, by simp [pluses]⟩
      · exact Or.inr ⟨'e' :: 'k' :: su, by simp [pluses]⟩
      · exact Or.inl (by intro c hc; simp [pluses] at hc; subst hc; decide)
      · exact Or.inl (by intro c hc; simp [pluses] at hc; subst hc; decide)
      all_goals
        rintro ⟨r, hr⟩
        simp [pluses] at hr
    · obtain ⟨hc, ht⟩ := core_elem hcl sym d (pluses k ++ (w ++ su)) m hm hd (by
          intro h1 h2
          refine pluses_notFirst (by decide) k _ fun hk => ?_
          have := hs h2 h1 hk
          cases w with
          | nil => exact absurd rfl hne
          | cons x w =>
            intro c hc
            simp at hc this
            rw [← hc, this]
            decide) (by
          refine pluses_notFirst (by rw [digit_letter hcl 'P' (by decide)]; rfl) k _ fun _ => ?_
          cases w with
          | nil => exact absurd rfl hne
          | cons x w =>
            intro c hc
            simp at hc
            subst hc
            show (cl.digit x).isSome = false
            rw [digit_letter hcl x (electron_letters _ hword x (by simp))]
            rfl)
      refine ⟨.elem sym d, k, ?_, Or.inr ⟨_, _, _, k, rfl, setCore_elem cl sym d m hm⟩⟩
      rw [hname]
      exact groups_of hcl ws hw _ _ w su k ht hc hp (Or.inl hword) hsu
  obtain ⟨c, k, hg, hc⟩ := key
  exact ⟨_, identify_electron cl species ws c (pluses k) w hne hdef hg hc, put_says _ _ _ _,
    put_flags species ws (fun w h => (hw w h).1) _ _ _⟩

/-- The documented example `ejected_tracer_electronx`. -/
example : ∃ r, identify ascii "ejected_tracer_electronx" = .ok r ∧ Says r 1 (-1) false ∧
    Flags r "ejected_tracer_electronx" ["ejected".toList, "tracer".toList] :=
  species_electron ascii ascii_ok "ejected_tracer_electronx" ["ejected".toList, "tracer".toList]
    (by unfold Words; decide) "elec".toList "tronx".toList (by decide) (by unfold Plain; decide)
    (Or.inl (by decide +kernel)) (by decide +kernel)

/-- `C6Electrons`: electrons. -/
example : ∃ r, identify ascii "C6Electrons" = .ok r ∧ Says r 1 (-1) false ∧
    Flags r "C6Electrons" [] :=
  species_electron ascii ascii_ok "C6Electrons" []
    (by unfold Words; decide) "Elec".toList "trons".toList (by decide) (by unfold Plain; decide)
    (Or.inr ⟨"C".toList, "6".toList, 0, 12011 / 1000, by decide +kernel, by decide +kernel,
      by unfold Digits; decide, by decide⟩) (by decide +kernel)

/-- The documented examples with lower case symbols or longer default names are not recognised,
although the docstring calls them valid. -/
theorem species_documented_violated :
    identify ascii "tracer_proton" = .error .genericException ∧
    identify ascii "protonb" = .error .genericException ∧
    identify ascii "ejected_c6b" = .error .genericException ∧
    (∃ d, identify ascii "c6" = .ok d ∧ Says d (18362 / 10 * 12) 1 true) := by
  refine ⟨refused (by decide +kernel), refused (by decide +kernel), refused (by decide +kernel), ?_⟩
  obtain ⟨d, h1, h2, _⟩ := species_default ascii "c6" ⟨18362 / 10 * 12, 1, true⟩ (by decide +kernel)
  exact ⟨d, h1, h2⟩

/-- Iron, tin, rhenium and californium are not in the table of elements: their entries have other
symbols. -/
theorem species_elements_violated : ∀ s ∈ ["Fe1", "Sn1", "Re1", "Cf1"],
    identify ascii s = .error .keyError := by
  have h : ∀ s ∈ ["Fe1", "Sn1", "Re1", "Cf1"], refusal (identify ascii s) = some .keyError := by
    decide +kernel
  exact fun s hs => refused (h s hs)

/-- The prefix of a recognised name does not change mass, charge and kind. Partial: the base name
and the full name must not be among the known names; see `species_documented_violated`
(`tracer_proton`). -/
theorem species_prefix_partial (cl : Classes) (hcl : Classes.Ok cl) (base species : String)
    (ws : List (List Char)) (hw : Words ws) (hbase : '_' ∉ underscores base)
    (hname : underscores species = prefixText ws ++ underscores base)
    (hd1 : defaults.lookup (String.ofList (underscores base)) = none)
    (hd2 : defaults.lookup (String.ofList (underscores species)) = none)
    (d : Dict) (h : identify cl base = .ok d) :
    ∃ r m q i, identify cl species = .ok r ∧ Says d m q i ∧ Says r m q i ∧ Flags r species ws := by
  set b := underscores base with hb
  have hb0 : '_' ∉ b.takeWhile (· != '\n') := fun hm => hbase ((List.takeWhile_sublist _).subset hm)
  have hT : Tail cl b := by
    by_contra hn
    have := name_none hcl [] b (by simp) hb0 hn
    unfold identify at h
    simp only [← hb, hd1] at h
    rw [show nameRx cl b = [] from this] at h
    cases h
  obtain ⟨c, pl, el, r1, r2, r3, h1, h2, h3, h4⟩ := base_head hcl b hT
  have g1 := name_head (prae_head' [] b (by simp) hb0) h1 h2 h3 h4
  have g2 := name_head (prae_head' ws b (fun w h => (hw w h).2.2) hb0) h1 h2 h3 h4
  rw [← hname] at g2
  rw [prefixText, List.nil_append] at g1
  obtain ⟨t1, t2⟩ := core_mem cl b c r1 (List.mem_of_mem_head? h1)
  obtain ⟨f1, k, hk⟩ := splits_plus r1 _ (List.mem_of_mem_head? h2)
  have hk : pl = pluses k := hk
  subst hk
  have hws : ∀ w ∈ ws, '_' ∉ w := fun w h => (hw w h).1
  -- the middle writes all three, or writes nothing
  have hcore : c = .none ∨ (∃ m q i, ∀ d, setCore cl c d = .ok (put d m q i)) ∨
      ∀ d, setCore cl c d = .error .keyError := by
    cases c with
    | none => exact Or.inl rfl
    | elem sym ds =>
      cases hm : massOf (String.ofList sym) with
      | none => exact Or.inr (Or.inr fun d => by simp only [setCore, hm])
      | some m => exact Or.inr (Or.inl ⟨_, _, _, setCore_elem cl sym ds m hm⟩)
    | ionmc m q => exact Or.inr (Or.inl ⟨_, _, _, setCore_ion cl m q⟩)
  rcases hcore with rfl | ⟨m, q, i, hc⟩ | hc
  · obtain ⟨e1, e2⟩ := core_none_head h1
    have hk0 : pluses k = [] := by
      cases k with
      | zero => rfl
      | succ k =>
        exfalso
        have f1 : pluses (k + 1) ++ r2 = r1 := f1
        rw [e1] at f1
        refine elem_some b 'P' (by decide) ?_ ?_ e2
        · rw [← f1]; rfl
        · rw [← f1]
          rintro ⟨r, hr⟩
          simp [pluses] at hr
    by_cases hel : el = []
    · exfalso
      rw [identify_groups cl base _ hd1 g1, hk0, hel] at h
      have : (setWords [] (start base)) "mass" = none := by
        rw [show ([] : List Char) = prefixText [] from rfl, setWords_get [] (by simp)]
        rfl
      simp only [setCore, setPlus, setElectron, if_pos, bind, Except.bind] at h
      rw [this] at h
      cases h
    · have i1 := identify_electron cl base [] .none _ el hel hd1 g1 (Or.inl ⟨rfl, hk0⟩)
      have i2 := identify_electron cl species ws .none _ el hel hd2 g2 (Or.inl ⟨rfl, hk0⟩)
      rw [i1] at h
      cases h
      exact ⟨_, _, _, _, i2, put_says _ _ _ _, put_says _ _ _ _, put_flags species ws hws _ _ _⟩
  · by_cases hel : el = []
    · subst hel
      have i1 := identify_put cl base [] c k m q i hd1 g1 hc
      have i2 := identify_put cl species ws c k m q i hd2 g2 hc
      rw [i1] at h
      cases h
      exact ⟨_, _, _, _, i2, put_says _ _ _ _, put_says _ _ _ _, put_flags species ws hws _ _ _⟩
    · have i1 := identify_electron cl base [] c _ el hel hd1 g1 (Or.inr ⟨m, q, i, k, rfl, hc⟩)
      have i2 := identify_electron cl species ws c _ el hel hd2 g2 (Or.inr ⟨m, q, i, k, rfl, hc⟩)
      rw [i1] at h
      cases h
      exact ⟨_, _, _, _, i2, put_says _ _ _ _, put_says _ _ _ _, put_flags species ws hws _ _ _⟩
  · rw [identify_groups cl base _ hd1 g1] at h
    simp only [hc] at h
    cases h

example : ∃ d, identify ascii "He2" = .ok d := by
  obtain ⟨d, h, _⟩ := species_element ascii ascii_ok "He2" [] (by unfold Words; decide) "He".toList
    "2".toList [] 0 (4003 / 1000) (by decide +kernel) (by decide +kernel) (by decide +kernel)
    (by unfold Digits; decide) (by unfold Plain; decide) (by intro h; cases h)
    (by intro _ c hc; cases hc) (by decide +kernel) (by decide +kernel)
  exact ⟨d, h⟩

/-- Every other name is refused: a name which is accepted is a known name, or its base name (behind
the last separator) begins with the symbol of an element in the table, with `ionm#c#` or `ionc#m#`,
or with the word for electron. Partial: a name whose prefixes contain the words `mass`, `charge`
and `ision` is accepted, see `species_reserved_violated`. -/
theorem species_refused_partial (cl : Classes) (hcl : Classes.Ok cl) (species : String) (d : Dict)
    (h : identify cl species = .ok d)
    (hdef : defaults.lookup (String.ofList (underscores species)) = none) :
    ∃ ws b, underscores species = prefixText ws ++ b ∧ (∀ w ∈ ws, '_' ∉ w) ∧ '_' ∉ b ∧
      ((∃ sym t m, b = sym ++ t ∧ massOf (String.ofList sym) = some m) ∨
        (∃ m q t, m ≠ [] ∧ q ≠ [] ∧ Digits cl m ∧ Digits cl q ∧
          (b = "ionc".toList ++ q ++ 'm' :: m ++ t ∨ b = "ionm".toList ++ m ++ 'c' :: q ++ t)) ∨
        (∃ w ∈ electronWords, w <+: b) ∨
        ("mass".toList ∈ ws ∧ "charge".toList ∈ ws ∧ "ision".toList ∈ ws)) := by
  obtain ⟨ws, b, hname, hws, hb⟩ := decompose (underscores species)
  have hT : Tail cl b := by
    by_contra hn
    have := name_none hcl ws b (fun w h => (hws w h).2) hb hn
    rw [← hname] at this
    unfold identify at h
    simp only [hdef, this] at h
    cases h
  have hsep : '_' ∉ b := by
    obtain ⟨u, v, h1, h2, h3⟩ := hT
    have hu : ∀ y ∈ u, (y != '\n') = true := by
      intro y hy
      simp only [bne_iff_ne, ne_eq]
      rintro rfl
      have := h2 _ hy
      rw [hcl.newline] at this
      cases this
    have : '_' ∉ u := by
      intro hm
      apply hb
      rw [h1, List.takeWhile_append_of_pos hu]
      exact List.mem_append_left _ hm
    rw [h1, List.mem_append, not_or]
    refine ⟨this, ?_⟩
    rcases h3 with rfl | rfl <;> simp
  refine ⟨ws, b, hname, fun w h => (hws w h).1, hsep, ?_⟩
  obtain ⟨c, pl, el, r1, r2, r3, h1, h2, h3, h4⟩ := base_head hcl b hT
  have g := name_head (prae_head' ws b (fun w h => (hws w h).2) hb) h1 h2 h3 h4
  rw [← hname] at g
  obtain ⟨t, t1, t2⟩ := core_mem cl b c r1 (List.mem_of_mem_head? h1)
  rw [identify_groups cl species _ hdef g] at h
  cases c with
  | elem sym ds =>
    left
    cases hm : massOf (String.ofList sym) with
    | none =>
      simp only [setCore, hm] at h
      cases h
    | some m =>
      obtain ⟨rfl, _⟩ := t2
      exact ⟨sym, ds ++ r1, m, by rw [t1, List.append_assoc], hm⟩
  | ionmc m q =>
    right; left
    obtain ⟨dm, dq, hm, hq, rfl | rfl⟩ := t2
    · exact ⟨m, q, r1, hm, hq, dm, dq, Or.inl t1⟩
    · exact ⟨m, q, r1, hm, hq, dm, dq, Or.inr t1⟩
  | none =>
    right; right
    obtain ⟨e1, e2⟩ := core_none_head h1
    obtain ⟨f1, k, hk⟩ := splits_plus r1 _ (List.mem_of_mem_head? h2)
    have hk : pl = pluses k := hk
    subst hk
    have f1 : pluses k ++ r2 = r1 := f1
    have hk0 : pluses k = [] := by
      cases k with
      | zero => rfl
      | succ k =>
        exfalso
        rw [e1] at f1
        refine elem_some b 'P' (by decide) ?_ ?_ e2
        · rw [← f1]; rfl
        · rw [← f1]
          rintro ⟨r, hr⟩
          simp [pluses] at hr
    rw [hk0, List.nil_append, e1] at f1
    by_cases hel : el = []
    · right
      simp only [setCore, hk0, hel, setPlus, setElectron, if_pos, bind, Except.bind] at h
      have key : ∀ k, k ≠ "tracer" → k ≠ "ejected" → k ≠ "name" → k.toList ∉ ws →
          (setWords (prefixText ws) (start species)) k = none := by
        intro k h1 h2 h3 h4
        rw [setWords_get ws (fun w h => (hws w h).1), if_neg (fun h => h4 h.1)]
        simp [start, h1, h2, h3]
      refine ⟨?_, ?_, ?_⟩
      · by_contra hn
        rw [key "mass" (by decide) (by decide) (by decide) hn] at h
        cases h
      · by_contra hn
        rw [key "charge" (by decide) (by decide) (by decide) hn] at h
        simp at h
      · by_contra hn
        rw [key "ision" (by decide) (by decide) (by decide) hn] at h
        simp at h
    · left
      have hmem : (el, r3) ∈ electronRx r2 := by
        have := List.mem_of_mem_head? h3
        simp only [Rx.opt, List.mem_append, List.mem_singleton, Prod.mk.injEq] at this
        rcases this with h | h
        · exact h
        · exact absurd h.1 hel
      obtain ⟨s1, s2⟩ := splits_electron r2 _ hmem
      exact ⟨el, s2, r3, by rw [← f1]; exact s1⟩

/-- Names not accepted exist: an unknown word. -/
example : identify ascii "tracer_something" = .error .genericException :=
  refused (by decide +kernel)

/-- A name naming no species at all is accepted when its prefixes are `mass`, `charge` and `ision`,
and its mass is then `True`. -/
theorem species_reserved_violated :
    ∃ d, identify ascii "mass_charge_ision_x" = .ok d ∧ d "mass" = some (.bool true) := by
  have h : (identify ascii "mass_charge_ision_x").map (fun d => d "mass") =
      .ok (some (.bool true)) := by
    decide +kernel
  cases e : identify ascii "mass_charge_ision_x" with
  | error x =>
    rw [e] at h
    cases h
  | ok d =>
    rw [e] at h
    exact ⟨d, rfl, Except.ok.inj h⟩

/-- The key `name` is not always the species name: the prefix `name` overwrites it. -/
theorem species_name_violated :
    ∃ d, identify ascii "name_H1" = .ok d ∧ d "name" = some (.bool true) := by
  have h : (identify ascii "name_H1").map (fun d => d "name") = .ok (some (.bool true)) := by
    decide +kernel
  cases e : identify ascii "name_H1" with
  | error x =>
    rw [e] at h
    cases h
  | ok d =>
    rw [e] at h
    exact ⟨d, rfl, Except.ok.inj h⟩

/-- The two ways to ask whether a species is ejected disagree. -/
theorem species_ejected_violated :
    isEjected "tracer_ejected_H1" = false ∧ flag ascii "tracer_ejected_H1" "ejected" = .ok true ∧
      isEjected "ejected_" = true ∧ flag ascii "ejected_" "ejected" = .error .genericException := by
  decide +kernel


end Postpic.Props
