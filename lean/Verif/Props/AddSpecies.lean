import Verif.Spec.AddSpecies
import Verif.Props.Species

/-!
# C108: collections contain exactly the species asked for
-/

set_option autoImplicit false

namespace Postpic.Props

open Postpic Postpic.Particles Postpic.Species Postpic.Spec

variable {V : Type}

theorem keyOf_keyword (cl : Classes) (arg : String) : (keyOf cl arg).isSome ↔ arg ∈ speciesKeywords := by
  unfold keyOf speciesKeywords
  simp only [List.mem_cons, List.not_mem_nil, or_false]
  split_ifs <;> simp_all

theorem filterM_key (cl : Classes) (names : List String) (arg : String) (key : String → Res Bool) (hk : keyOf cl arg = some key)
    (hkn : KeywordKnown cl names arg) : names.filterM key = .ok (askedFor cl names arg) := by
  have hmem : arg ∈ speciesKeywords := (keyOf_keyword cl arg).1 (by rw [hk]; rfl)
  have hgen : ∀ (q : String → Bool), (∀ s ∈ names, key s = .ok (q s)) → names.filterM key = .ok (names.filter q) := by
    intro q hq
    obtain ⟨a, ha⟩ := filterM_of key names fun s hs => ⟨_, hq s hs⟩
    obtain ⟨-, e⟩ := filterM_ok _ _ _ ha
    rw [ha, e]
    congr 1
    refine List.filter_congr fun s hs => ?_
    rw [hq s hs]
  unfold askedFor
  rw [if_pos hmem]
  apply hgen
  intro s hs
  simp only [speciesKeywords, List.mem_cons, List.not_mem_nil, or_false] at hmem
  rcases hmem with rfl | rfl | rfl | rfl | rfl
  · obtain ⟨v, hv⟩ := hkn _ rfl s hs
    cases hk
    simp only [keywordAsks, hv] at hv ⊢
    cases v <;> simp
  · obtain ⟨v, hv⟩ := hkn _ rfl s hs
    cases hk
    simp only [keywordAsks, hv] at hv ⊢
    cases v <;> simp [bind, Except.bind, pure, Except.pure]
  · obtain ⟨v, hv⟩ := hkn _ rfl s hs
    cases hk
    simp only [keywordAsks, hv] at hv ⊢
    cases v <;> simp
  · obtain ⟨v, hv⟩ := hkn _ rfl s hs
    cases hk
    simp only [keywordAsks, hv] at hv ⊢
    cases v <;> simp [bind, Except.bind, pure, Except.pure]
  · cases hk
    rfl

theorem keyOf_none (cl : Classes) {arg : String} (h : arg ∉ speciesKeywords) : keyOf cl arg = none := by
  rw [← keyOf_keyword cl arg] at h
  cases hk : keyOf cl arg with
  | none => rfl
  | some _ => simp [hk] at h

theorem addSpecies_name (cl : Classes) (d : SpeciesDump V) (depth : ℕ) (ignore : Bool) (arg : String) (l : List (Part V))
    (h : arg ∉ speciesKeywords) :
    addSpecies cl d (depth + 1) ignore arg l =
      if arg ∈ d.names then (.ok (), l ++ [whole d arg]) else if ignore = true then (.ok (), l) else (.error .keyError, l) := by
  simp only [addSpecies, keyOf_none cl h, single]
  split_ifs <;> simp_all [whole]

theorem addEach_names (cl : Classes) (d : SpeciesDump V) (depth : ℕ) (hn : ∀ s ∈ d.names, s ∉ speciesKeywords)
    (toadd : List String) (ht : ∀ s ∈ toadd, s ∈ d.names) (l : List (Part V)) :
    addEach (addSpecies cl d (depth + 1) false) toadd l = (.ok (), l ++ toadd.map (whole d)) := by
  induction toadd generalizing l with
  | nil => simp [addEach]
  | cons s rest ih =>
    have hs := ht s List.mem_cons_self
    rw [addEach, addSpecies_name cl d depth false s l (hn s hs), if_pos hs]
    simp only
    rw [ih fun t h => ht t (List.mem_cons_of_mem _ h)]
    simp

theorem askedFor_subset (cl : Classes) (names : List String) (arg : String) : ∀ s ∈ askedFor cl names arg, s ∈ names := by
  intro s hs
  unfold askedFor at hs
  split_ifs at hs with h1 h2
  · exact (List.mem_filter.1 hs).1
  · rw [List.mem_singleton.1 hs]; exact h2
  · cases hs

/-- C108: `add` appends the species an argument stands for, each with all its particles and in the order of the dump, behind the ones
already there. A species which is missing in the dump is a KeyError, or ignored on request, and nothing is changed. -/
theorem add_species_partial (cl : Classes) (d : SpeciesDump V) (depth : ℕ) (hd : 2 ≤ depth) (ignore : Bool) (arg : String) (l : List (Part V))
    (hn : ∀ s ∈ d.names, s ∉ speciesKeywords) (hk : KeywordKnown cl d.names arg) :
    ((arg ∈ speciesKeywords ∨ arg ∈ d.names ∨ ignore = true) →
      addSpecies cl d depth ignore arg l = (.ok (), l ++ (askedFor cl d.names arg).map (whole d))) ∧
    (¬ (arg ∈ speciesKeywords ∨ arg ∈ d.names ∨ ignore = true) → addSpecies cl d depth ignore arg l = (.error .keyError, l)) := by
  obtain ⟨k, rfl⟩ : ∃ k, depth = k + 2 := ⟨depth - 2, by omega⟩
  constructor
  · intro h
    by_cases hkw : arg ∈ speciesKeywords
    · obtain ⟨key, hkey⟩ := Option.isSome_iff_exists.1 ((keyOf_keyword cl arg).2 hkw)
      rw [addSpecies]
      simp only [hkey, filterM_key cl d.names arg key hkey hk]
      exact addEach_names cl d k hn _ (askedFor_subset cl _ _) l
    · rw [addSpecies_name cl d _ ignore arg l hkw]
      unfold askedFor
      rw [if_neg hkw]
      by_cases hm : arg ∈ d.names
      · rw [if_pos hm, if_pos hm]; rfl
      · have hi : ignore = true := by tauto
        rw [if_neg hm, if_neg hm, if_pos hi]
        simp
  · intro h
    rw [addSpecies_name cl d _ ignore arg l fun hc => h (Or.inl hc), if_neg fun hc => h (Or.inr (Or.inl hc)),
      if_neg fun hc => h (Or.inr (Or.inr hc))]

theorem addEach_ok (add : String → List (Part V) → Res Unit × List (Part V)) (f : String → List (Part V)) (args : List String)
    (h : ∀ a ∈ args, ∀ l, add a l = (.ok (), l ++ f a)) (l : List (Part V)) :
    addEach add args l = (.ok (), l ++ args.flatMap f) := by
  induction args generalizing l with
  | nil => simp [addEach]
  | cons a rest ih =>
    rw [addEach, h a List.mem_cons_self l]
    simp only
    rw [ih fun b hb => h b (List.mem_cons_of_mem _ hb)]
    simp

theorem addEach_append (add : String → List (Part V) → Res Unit × List (Part V)) (f : String → List (Part V)) (args rest : List String)
    (h : ∀ a ∈ args, ∀ l, add a l = (.ok (), l ++ f a)) (l : List (Part V)) :
    addEach add (args ++ rest) l = addEach add rest (l ++ args.flatMap f) := by
  induction args generalizing l with
  | nil => simp
  | cons a args ih =>
    rw [List.cons_append, addEach, h a List.mem_cons_self l]
    simp only
    rw [ih fun b hb => h b (List.mem_cons_of_mem _ hb)]
    simp

/-- C108: a new collection contains the species its arguments stand for, one argument after the other, each with all its particles. It is
refused with a KeyError exactly if a name is missing in the dump and missing species are not ignored. -/
theorem collection_species_partial (cl : Classes) (d : SpeciesDump V) (depth : ℕ) (hd : 2 ≤ depth) (ignore : Bool) (args : List String)
    (hn : ∀ s ∈ d.names, s ∉ speciesKeywords) (hk : ∀ a ∈ args, KeywordKnown cl d.names a) :
    ((∀ a ∈ args, a ∈ speciesKeywords ∨ a ∈ d.names ∨ ignore = true) →
      ∃ c, newColl cl d depth ignore args = .ok c ∧ c.speciess = args.flatMap (askedFor cl d.names) ∧ c.log = [] ∧
        ∀ p ∈ c.parts, p.species ∈ d.names ∧ p = whole d p.species) ∧
    (¬ (∀ a ∈ args, a ∈ speciesKeywords ∨ a ∈ d.names ∨ ignore = true) → newColl cl d depth ignore args = .error .keyError) := by
  constructor
  · intro h
    have hall := addEach_ok (addSpecies cl d depth ignore) (fun a => (askedFor cl d.names a).map (whole d)) args
      (fun a ha l => (add_species_partial cl d depth hd ignore a l hn (hk a ha)).1 (h a ha)) []
    refine ⟨⟨_, []⟩, by unfold newColl; rw [hall], ?_, rfl, ?_⟩
    · simp only [Coll.speciess, List.nil_append, List.map_flatMap, List.map_map]
      congr 1
      funext a
      exact List.map_id _
    · intro p hp
      simp only [List.nil_append, List.mem_flatMap, List.mem_map] at hp
      obtain ⟨a, -, s, hs, rfl⟩ := hp
      exact ⟨askedFor_subset cl _ _ _ hs, rfl⟩
  · intro h
    have : ∃ pre a post, args = pre ++ a :: post ∧ (∀ b ∈ pre, b ∈ speciesKeywords ∨ b ∈ d.names ∨ ignore = true) ∧
        ¬ (a ∈ speciesKeywords ∨ a ∈ d.names ∨ ignore = true) := by
      clear hk
      induction args with
      | nil => exact absurd (fun a ha => by cases ha) h
      | cons b rest ih =>
        by_cases hb : b ∈ speciesKeywords ∨ b ∈ d.names ∨ ignore = true
        · obtain ⟨pre, a, post, e, h1, h2⟩ := ih fun hc => h fun x hx => by
            rcases List.mem_cons.1 hx with rfl | hx
            · exact hb
            · exact hc x hx
          refine ⟨b :: pre, a, post, by rw [e]; rfl, ?_, h2⟩
          intro x hx
          rcases List.mem_cons.1 hx with rfl | hx
          · exact hb
          · exact h1 x hx
        · exact ⟨[], b, rest, rfl, ⟨fun x hx => absurd hx List.not_mem_nil, hb⟩⟩
    obtain ⟨pre, a, post, rfl, h1, h2⟩ := this
    unfold newColl
    rw [addEach_append _ (fun a => (askedFor cl d.names a).map (whole d)) pre (a :: post) fun b hb l =>
      (add_species_partial cl d depth hd ignore b l hn (hk b (by simp [hb]))).1 (h1 b hb)]
    rw [addEach, (add_species_partial cl d depth hd ignore a _ hn (hk a (by simp))).2 h2]

/-- C108: how often a species is in a new collection: once for each argument which is its name or a keyword for it. -/
theorem collection_count_partial (cl : Classes) (d : SpeciesDump V) (depth : ℕ) (hd : 2 ≤ depth) (ignore : Bool) (args : List String)
    (hn : ∀ s ∈ d.names, s ∉ speciesKeywords) (hu : d.names.Nodup) (hk : ∀ a ∈ args, KeywordKnown cl d.names a) (c : Coll V)
    (hc : newColl cl d depth ignore args = .ok c) (s : String) (hs : s ∈ d.names) :
    c.speciess.count s = args.countP fun a => a = s ∨ (a ∈ speciesKeywords ∧ s ∈ askedFor cl d.names a) := by
  have hall : ∀ a ∈ args, a ∈ speciesKeywords ∨ a ∈ d.names ∨ ignore = true := by
    by_contra h
    rw [(collection_species_partial cl d depth hd ignore args hn hk).2 h] at hc
    cases hc
  obtain ⟨c', hc', h1, -⟩ := (collection_species_partial cl d depth hd ignore args hn hk).1 hall
  rw [hc] at hc'
  cases hc'
  rw [h1]
  clear h1 hall hc hk
  induction args with
  | nil => rfl
  | cons a rest ih =>
    rw [List.flatMap_cons, List.count_append, ih, List.countP_cons, add_comm]
    congr 1
    by_cases hkw : a ∈ speciesKeywords
    · have hne : a ≠ s := fun e => hn s hs (e ▸ hkw)
      simp only [hne, hkw, true_and, false_or, decide_eq_true_eq]
      have hnd : (askedFor cl d.names a).Nodup := by unfold askedFor; rw [if_pos hkw]; exact hu.filter _
      rw [hnd.count]
    · have : (askedFor cl d.names a) = if a ∈ d.names then [a] else [] := by unfold askedFor; rw [if_neg hkw]
      by_cases e : a = s
      · subst e; rw [this]; simp [hs]
      · have h0 : ∀ l : List String, (∀ x ∈ l, x = a) → l.count s = 0 := fun l hl => List.count_eq_zero.2 fun hm => e (hl s hm).symm
        have h1 : ¬ (decide (a = s ∨ a ∈ speciesKeywords ∧ s ∈ askedFor cl d.names a) = true) := by
          rw [decide_eq_true_eq]
          rintro (h | h)
          · exact e h
          · exact hkw h.1
        rw [if_neg h1, this]
        apply h0
        intro x hx
        split_ifs at hx
        · exact List.mem_singleton.1 hx
        · cases hx

def laserDump : SpeciesDump ℚ := ⟨["electron", "H1", "ejected_C6", "photon"], fun _ => ⟨fun _ => none, 0, fun _ => .ok 1⟩⟩

theorem laserDump_known (a : String) : KeywordKnown ascii laserDump.names a := by
  have h : ∀ k ∈ ["ision", "ejected"], ∀ s ∈ laserDump.names, ∃ v, flag ascii s k = .ok v := by
    have : ∀ k ∈ ["ision", "ejected"], ∀ s ∈ laserDump.names, (flag ascii s k).isOk = true := by decide +kernel
    intro k hk s hs
    have := this k hk s hs
    cases h : flag ascii s k with
    | ok v => exact ⟨v, rfl⟩
    | error e => simp [h, Except.isOk, Except.toBool] at this
  intro ask hask s hs
  refine h ask.1 ?_ s hs
  unfold keywordAsks at hask
  split at hask <;> first | (cases hask; decide) | cases hask

example := (collection_species_partial ascii laserDump 2 (by decide) false ["photon", "_ions", "electron", "_all"] (by decide +kernel)
  fun a _ => laserDump_known a).1 (by decide +kernel)
example : ["photon", "_ions", "electron"].flatMap (askedFor ascii laserDump.names) = ["photon", "H1", "ejected_C6", "electron"] := by decide +kernel
example := (collection_species_partial ascii laserDump 2 (by decide) false ["photon", "positron"] (by decide +kernel)
  fun a _ => laserDump_known a).2 (by decide +kernel)
example := (collection_species_partial ascii laserDump 2 (by decide) true ["photon", "positron"] (by decide +kernel)
  fun a _ => laserDump_known a).1 (by decide +kernel)

/-- C108: a keyword is refused if what it asks for is not known for one of the species of the dump; nothing is changed. This is not
ignored, whatever is asked for. -/
theorem add_unknown (cl : Classes) (d : SpeciesDump V) (depth : ℕ) (ignore : Bool) (arg : String) (l : List (Part V))
    (hk : ¬ KeywordKnown cl d.names arg) : ∃ e, addSpecies cl d (depth + 1) ignore arg l = (.error e, l) := by
  have hask : ∃ ask, keywordAsks arg = some ask ∧ ∃ s ∈ d.names, ∀ v, flag cl s ask.1 ≠ .ok v := by
    unfold KeywordKnown at hk
    push Not at hk
    exact hk
  obtain ⟨ask, h1, s, hs, hv⟩ := hask
  obtain ⟨key, hkey, hks⟩ : ∃ key, keyOf cl arg = some key ∧ ∀ v, key s ≠ .ok v := by
    have hno : ∀ v, (do return !(← flag cl s ask.1) : Res Bool) ≠ .ok v := by
      intro v
      cases hf : flag cl s ask.1 with
      | ok w => exact absurd hf (hv w)
      | error e => intro h; cases h
    unfold keywordAsks at h1
    split at h1 <;> first | (cases h1; done) | skip
    · cases h1; exact ⟨_, rfl, hv⟩
    · cases h1; exact ⟨_, rfl, hno⟩
    · cases h1; exact ⟨_, rfl, hv⟩
    · cases h1; exact ⟨_, rfl, hno⟩
  cases hf : d.names.filterM key with
  | error e => exact ⟨e, by simp only [addSpecies, hkey, hf]⟩
  | ok a =>
    obtain ⟨v, hv'⟩ := (filterM_ok _ _ _ hf).1 s hs
    exact absurd hv' (hks v)

/-- C108 fails for dumps with a species of unknown kind: none of the ions can be selected by the keyword. -/
theorem collection_unknown_violated (depth : ℕ) (ignore : Bool) :
    ∃ d : SpeciesDump ℚ, d.names = ["electron", "H1", "probe"] ∧
      newColl ascii d (depth + 1) ignore ["_ions"] = .error .genericException ∧
      newColl ascii d (depth + 1) ignore ["_nonions"] = .error .genericException := by
  refine ⟨⟨["electron", "H1", "probe"], fun _ => ⟨fun _ => none, 0, fun _ => .ok 1⟩⟩, rfl, ?_, ?_⟩
  · have h : (["electron", "H1", "probe"].filterM fun s => flag ascii s "ision") = .error .genericException := by decide +kernel
    simp only [newColl, addEach, addSpecies, keyOf, if_true, h]
  · have h : (["electron", "H1", "probe"].filterM fun s => do return !(← flag ascii s "ision")) = .error .genericException := by
      decide +kernel
    simp only [newColl, addEach, addSpecies, keyOf, if_true, h]
    rw [if_neg (by decide)]
    simp only [h]

/-- C108 fails for dumps with a species whose name is a keyword: `_all` selects itself until python gives up, and the species before it
has been added once for each call. -/
theorem collection_recursion_violated (cl : Classes) (data : String → Dump V) (depth : ℕ) (ignore : Bool) (l : List (Part V)) :
    addSpecies cl ⟨["electron", "_all"], data⟩ (depth + 1) ignore "_all" l =
        (.error .recursionError, l ++ List.replicate depth ⟨"electron", fresh (data "electron"), []⟩) ∧
      newColl cl ⟨["electron", "_all"], data⟩ (depth + 1) ignore ["_all"] = .error .recursionError := by
  have key : ∀ (depth : ℕ) (ignore : Bool) (l : List (Part V)), addSpecies cl ⟨["electron", "_all"], data⟩ (depth + 1) ignore "_all" l =
      (.error .recursionError, l ++ List.replicate depth ⟨"electron", fresh (data "electron"), []⟩) := by
    intro depth
    induction depth with
    | zero =>
      intro ignore l
      simp [addSpecies, keyOf, addEach, bind, Except.bind, pure, Except.pure, List.filterM]
    | succ n ih =>
      intro ignore l
      have hstep : addSpecies cl ⟨["electron", "_all"], data⟩ (n + 1 + 1) ignore "_all" l =
          addEach (addSpecies cl ⟨["electron", "_all"], data⟩ (n + 1) false) ["electron", "_all"] l := rfl
      rw [hstep, addEach, addSpecies_name cl _ n false "electron" l (by decide), if_pos List.mem_cons_self]
      simp only [addEach, ih]
      rw [List.append_assoc, List.replicate_succ]
      rfl
  refine ⟨key depth ignore l, ?_⟩
  simp only [newColl, addEach, key]

/-- C56: collections made with the keywords for ions and for the other species divide the species of the dump: every species is in
exactly one of both, in the order of the dump, and it is in the first exactly if its flag is true. The same for ejected species. With `_all`
the collection has every species. -/
theorem species_keywords_partial (cl : Classes) (d : SpeciesDump V) (depth : ℕ) (hd : 2 ≤ depth) (ignore : Bool) (yes no key : String)
    (hk : (yes, no, key) = ("_ions", "_nonions", "ision") ∨ (yes, no, key) = ("_ejected", "_noejected", "ejected"))
    (hn : ∀ s ∈ d.names, s ∉ speciesKeywords) (hf : ∀ s ∈ d.names, ∃ v, flag cl s key = .ok v) :
    ∃ a b c, newColl cl d depth ignore [yes] = .ok a ∧ newColl cl d depth ignore [no] = .ok b ∧
      newColl cl d depth ignore ["_all"] = .ok c ∧ c.speciess = d.names ∧
      a.speciess.Sublist d.names ∧ b.speciess.Sublist d.names ∧ a.speciess.length + b.speciess.length = d.names.length ∧
      ∀ s ∈ d.names, (s ∈ a.speciess ↔ flag cl s key = .ok true) ∧ (s ∈ b.speciess ↔ flag cl s key = .ok false) ∧
        (s ∈ a.speciess ↔ s ∉ b.speciess) := by
  have hy : keywordAsks yes = some (key, true) ∧ keywordAsks no = some (key, false) ∧ yes ∈ speciesKeywords ∧ no ∈ speciesKeywords := by
    rcases hk with h | h <;> (cases h; decide)
  obtain ⟨hya, hna, hym, hnm⟩ := hy
  have known : ∀ arg v, keywordAsks arg = some (key, v) → KeywordKnown cl d.names arg := by
    intro arg v h ask hask
    rw [h] at hask
    cases hask
    exact hf
  have get : ∀ arg, arg ∈ speciesKeywords → KeywordKnown cl d.names arg →
      ∃ c, newColl cl d depth ignore [arg] = .ok c ∧ c.speciess = askedFor cl d.names arg := by
    intro arg hm hkn
    obtain ⟨c, h1, h2, -⟩ := (collection_species_partial cl d depth hd ignore [arg] hn fun a ha => by
      rw [List.mem_singleton.1 ha]; exact hkn).1 fun a ha => Or.inl (by rw [List.mem_singleton.1 ha]; exact hm)
    exact ⟨c, h1, by rw [h2]; simp⟩
  obtain ⟨a, ha, hax⟩ := get yes hym (known yes true hya)
  obtain ⟨b, hb, hbx⟩ := get no hnm (known no false hna)
  obtain ⟨c, hc, hcx⟩ := get "_all" (by decide) fun ask h => by cases h
  have hall : askedFor cl d.names "_all" = d.names := by
    unfold askedFor
    rw [if_pos (by decide)]
    exact List.filter_eq_self.2 fun _ _ => rfl
  have hae : a.speciess = d.names.filter fun s => decide (flag cl s key = .ok true) := by
    rw [hax]; unfold askedFor; rw [if_pos hym]; simp only [hya]
  have hbe : b.speciess = d.names.filter fun s => !decide (flag cl s key = .ok true) := by
    rw [hbx]; unfold askedFor; rw [if_pos hnm]; simp only [hna]
    refine List.filter_congr fun s hs => ?_
    obtain ⟨v, hv⟩ := hf s hs
    rw [hv]
    cases v <;> simp
  refine ⟨a, b, c, ha, hb, hc, hcx.trans hall, ?_, ?_, ?_, ?_⟩
  · rw [hae]; exact List.filter_sublist
  · rw [hbe]; exact List.filter_sublist
  · rw [hae, hbe]
    exact (List.length_eq_length_filter_add _).symm
  · intro s hs
    obtain ⟨v, hv⟩ := hf s hs
    rw [hae, hbe]
    simp only [List.mem_filter, hs, true_and, hv]
    cases v <;> simp

example := species_keywords_partial ascii laserDump 2 (by decide) false "_ions" "_nonions" "ision" (Or.inl rfl) (by decide +kernel)
  (laserDump_known "_ions" _ rfl)
example : askedFor ascii laserDump.names "_ions" = ["H1", "ejected_C6"] ∧ askedFor ascii laserDump.names "_nonions" = ["electron", "photon"] ∧
    askedFor ascii laserDump.names "_ejected" = ["ejected_C6"] := by decide +kernel

end Postpic.Props
