import Mathlib.Data.List.Nodup
import Mathlib.Order.Basic
import Verif.Spec.Classes

/-!
# C133: readers can be created and extended
-/

set_option autoImplicit false

namespace Postpic.Props

open Postpic Postpic.Spec Postpic.Classes

/-- Exactly those methods are abstract for which the first definition is abstract. -/
theorem abstracts_iff (mro : List PyClass) (m : String) : m ∈ abstracts mro ↔ methodKind mro m = some true := by
  induction mro with
  | nil => simp [abstracts, methodKind]
  | cons c l ih =>
    simp only [abstracts, List.mem_append, List.mem_filter, decide_eq_true_eq, ih, methodKind]
    by_cases h1 : m ∈ c.abstract
    · simp [h1]
    · by_cases h2 : m ∈ c.methods <;> simp [h1, h2]

theorem abstracts_none (mro : List PyClass) : abstracts mro = [] ↔ ∀ m, methodKind mro m ≠ some true := by
  rw [List.eq_nil_iff_forall_not_mem]
  exact forall_congr' fun m => not_congr (abstracts_iff mro m)

/-- A class which a user derives from the interface for dumps can be created if and only if it has all twelve required methods. -/
theorem user_dumpreader (name : String) (methods : List String) (init : Option Init) :
    abstracts (⟨name, [], methods, init⟩ :: dumpBase) = [] ↔
      ∀ m ∈ ["keys", "__getitem__", "data", "gridoffset", "gridspacing", "timestep", "time", "simdimensions", "_keyE", "_keyB", "listSpecies",
        "getSpecies"], m ∈ methods := by
  have e : abstracts dumpBase = ["keys", "__getitem__", "data", "gridoffset", "gridspacing", "timestep", "time", "simdimensions", "_keyE",
    "_keyB", "listSpecies", "getSpecies"] := by decide +kernel
  rw [abstracts, e, List.nil_append, List.filter_eq_nil_iff]
  simp

/-- The same for series of dumps, which need two methods. -/
theorem user_simreader (name : String) (methods : List String) (init : Option Init) :
    abstracts (⟨name, [], methods, init⟩ :: simBase) = [] ↔ "_getDumpreader" ∈ methods ∧ "__len__" ∈ methods := by
  have e : abstracts simBase = ["_getDumpreader", "__len__", "__len__"] := by decide +kernel
  rw [abstracts, e, List.nil_append, List.filter_eq_nil_iff]
  simp

/-- Extending a class adds no abstract methods. -/
theorem extension_abstracts {us base : List PyClass} (hu : ∀ u ∈ us, Extension u) (hb : abstracts base = []) : abstracts (us ++ base) = [] := by
  induction us with
  | nil => exact hb
  | cons u us ih =>
    rw [List.cons_append, abstracts, ih fun v hv => hu v (List.mem_cons_of_mem _ hv), (hu u List.mem_cons_self).methods]
    rfl

/-- Where `super` continues for a class further up. -/
theorem superStart_append {us base : List PyClass} {c : String} (h : ∀ u ∈ us, u.name ≠ c) : superStart (us ++ base) (.named c) = superStart base (.named c) := by
  induction us with
  | nil => rfl
  | cons u us ih =>
    have h1 := ih fun v hv => h v (List.mem_cons_of_mem _ hv)
    simp only [superStart, List.cons_append] at h1 ⊢
    rw [List.dropWhile_cons_of_pos (by simpa using h u List.mem_cons_self)]
    exact h1

theorem superStart_self (u : PyClass) (l : List PyClass) : superStart (u :: l) (.named u.name) = l := by
  simp [superStart]

theorem findInit_mem {l : List PyClass} {c : PyClass} {i : Init} (h : findInit l = some (c, i)) : c ∈ l ∧ c.init = some i := by
  induction l with
  | nil => cases h
  | cons d l ih =>
    rw [findInit] at h
    cases hd : d.init with
    | some j =>
      rw [hd] at h
      cases h
      exact ⟨List.mem_cons_self, hd⟩
    | none =>
      rw [hd] at h
      obtain ⟨h1, h2⟩ := ih h
      exact ⟨List.mem_cons_of_mem _ h1, h2⟩

/-- All calls of `super` name a class of the list. -/
def AllNamed (base : List PyClass) : Prop := ∀ c ∈ base, ∀ i, c.init = some i → ∀ s, i.super = some s → ∃ d ∈ base, s = .named d.name

/-- Base classes which name their class behave in the same way in extended classes. -/
theorem runInit_extended {us base : List PyClass} (hn : AllNamed base) (hd : ∀ u ∈ us, ∀ d ∈ base, u.name ≠ d.name) (limit : ℕ) :
    ∀ search, (∀ c ∈ search, c ∈ base) → ∀ kw, runInit (us ++ base) limit search kw = runInit base limit search kw := by
  induction limit with
  | zero => intro search _ kw; rfl
  | succ n ih =>
    intro search hs kw
    simp only [runInit]
    cases hf : findInit search with
    | none => rfl
    | some p =>
      obtain ⟨c, i⟩ := p
      obtain ⟨h1, h2⟩ := findInit_mem hf
      simp only
      cases hsup : i.super with
      | none => rfl
      | some s =>
        obtain ⟨d, hd1, rfl⟩ := hn c (hs c h1) i h2 s hsup
        simp only
        rw [superStart_append fun u hu => hd u hu d hd1, ih]
        intro x hx
        exact (List.dropWhile_sublist _).subset (List.mem_of_mem_tail hx)

theorem runInit_chain {pre us base : List PyClass} (hu : ∀ u ∈ us, Extension u) (hnd : ((pre ++ us).map (·.name)).Nodup) (n : ℕ) :
    ∀ kw m, n + us.length ≤ m → ∃ k, n ≤ k ∧ runInit (pre ++ us ++ base) m (us ++ base) kw =
      (runInit (pre ++ us ++ base) k base (leftKeywords us kw)).map (withInit us ++ ·) := by
  induction us generalizing pre with
  | nil =>
    intro kw m hm
    refine ⟨m, by simpa using hm, ?_⟩
    cases h : runInit (pre ++ [] ++ base) m ([] ++ base) kw <;> simp [leftKeywords, withInit, Except.map] at h ⊢ <;> rw [h]
  | cons u us ih =>
    intro kw m hm
    have e : pre ++ u :: us = pre ++ [u] ++ us := by simp
    have hE := hu u List.mem_cons_self
    have ih' := ih (pre := pre ++ [u]) (fun v hv => hu v (List.mem_cons_of_mem _ hv)) (by rw [← e]; exact hnd)
    rw [← e] at ih'
    rw [List.length_cons] at hm
    cases hi : u.init with
    | none =>
      have e1 : leftKeywords (u :: us) kw = leftKeywords us kw := by simp [leftKeywords, hi]
      have e2 : withInit (u :: us) = withInit us := by simp [withInit, hi]
      rw [e1]
      rw [e2]
      obtain ⟨k, h1, h3⟩ := ih' kw m (by omega)
      refine ⟨k, h1, ?_⟩
      rw [← h3]
      obtain ⟨m, rfl⟩ : ∃ m', m = m' + 1 := ⟨m - 1, by omega⟩
      simp only [runInit, List.cons_append, findInit, hi]
    | some i =>
      obtain ⟨i1, i2⟩ := hE.init i hi
      have e1 : leftKeywords (u :: us) kw = leftKeywords us (kw.filter fun k => decide (k ∉ i.params)) := by simp [leftKeywords, hi]
      have e2 : withInit (u :: us) = u.name :: withInit us := by simp [withInit, hi]
      rw [e1]
      rw [e2]
      obtain ⟨m, rfl⟩ : ∃ m', m = m' + 1 := ⟨m - 1, by omega⟩
      obtain ⟨k, h1, h3⟩ := ih' (kw.filter fun k => decide (k ∉ i.params)) m (by omega)
      refine ⟨k, h1, ?_⟩
      have hstart : superStart (pre ++ u :: us ++ base) (.named u.name) = us ++ base := by
        rw [List.append_assoc, superStart_append, List.cons_append, superStart_self]
        intro v hv h
        rw [List.map_append, List.nodup_append] at hnd
        exact hnd.2.2 _ (List.mem_map_of_mem hv) _ (List.mem_map_of_mem List.mem_cons_self) h
      rw [runInit]
      simp only [List.cons_append, findInit, hi, i1, i2]
      rw [if_neg (by simp)]
      simp only [hstart, h3]
      cases runInit (pre ++ u :: us ++ base) k base (leftKeywords us (kw.filter fun k => decide (k ∉ i.params))) <;> rfl

/-- C133 (part): readers whose `__init__` names its own class can be extended by any number of classes. -/
theorem extended_creates {us base : List PyClass} (hu : ∀ u ∈ us, Extension u) (hnd : (us.map (·.name)).Nodup) (hn : AllNamed base)
    (hd : ∀ u ∈ us, ∀ d ∈ base, u.name ≠ d.name) {n : ℕ} {kw l : List String} (hb : ∀ k, n ≤ k → create k base (leftKeywords us kw) = .ok l)
    {limit : ℕ} (hl : n + us.length ≤ limit) : create limit (us ++ base) kw = .ok (withInit us ++ l) := by
  have hab : abstracts base = [] := by
    have := hb n (Nat.le_refl n)
    unfold create at this
    by_contra h
    rw [if_pos h] at this
    cases this
  have hrun : ∀ k, n ≤ k → runInit (us ++ base) k base (leftKeywords us kw) = .ok l := by
    intro k hk
    rw [runInit_extended hn hd k base (fun _ h => h)]
    have := hb k hk
    unfold create at this
    rwa [if_neg (by simpa using hab)] at this
  obtain ⟨k, h1, h2⟩ := runInit_chain (pre := []) (base := base) hu hnd n kw limit hl
  unfold create
  rw [if_neg (by simpa using extension_abstracts hu hab)]
  rw [List.nil_append] at h2
  rw [h2, hrun k h1]
  rfl

/-- Readers which use `super(self.__class__, self)` call themselves again and again if they are extended. -/
theorem runInit_endless {us rest : List PyClass} {c : PyClass} {i : Init} (hu : ∀ u ∈ us, Extension u) (hnd : (us.map (·.name)).Nodup)
    (hne : us ≠ []) (hc : c.init = some i) (hi : i.kwargs = true ∧ i.super = some .dynamic) (n : ℕ) :
    ∀ pre post, us = pre ++ post → ∀ kw, runInit (us ++ c :: rest) n (post ++ c :: rest) kw = .error .recursionError := by
  induction n with
  | zero => intro pre post _ kw; rfl
  | succ n ih =>
    intro pre post
    induction post generalizing pre with
    | nil =>
      intro _ kw
      simp only [runInit, List.nil_append, findInit, hc, hi.1, hi.2]
      rw [if_neg (by simp)]
      obtain ⟨u, us', hus⟩ : ∃ u us', us = u :: us' := List.exists_cons_of_ne_nil hne
      have e : superStart (us ++ c :: rest) .dynamic = us' ++ c :: rest := by rw [hus]; rfl
      rw [e, ih [u] us' (by rw [hus]; rfl)]
      rfl
    | cons u post ih2 =>
      intro hus kw
      have hE := hu u (by rw [hus]; simp)
      cases hui : u.init with
      | none =>
        have := ih2 (pre ++ [u]) (by simp [hus]) kw
        simp only [runInit, List.cons_append, findInit, hui] at this ⊢
        exact this
      | some j =>
        obtain ⟨j1, j2⟩ := hE.init j hui
        simp only [runInit, List.cons_append, findInit, hui, j1, j2]
        rw [if_neg (by simp)]
        have hstart : superStart (us ++ c :: rest) (.named u.name) = post ++ c :: rest := by
          rw [hus, List.append_assoc, superStart_append, List.cons_append, superStart_self]
          intro v hv h
          rw [hus, List.map_append, List.nodup_append] at hnd
          exact hnd.2.2 _ (List.mem_map_of_mem hv) _ (List.mem_map_of_mem List.mem_cons_self) h
        rw [hstart, ih (pre ++ [u]) post (by simp [hus])]
        rfl

/-- C133, violated: a class which extends the readers for EPOCH or the dummy readers, as every user would write it (even an empty one), can never
be created: `__init__` calls itself until python gives up. -/
theorem extended_recursion_violated {us : List PyClass} (hu : ∀ u ∈ us, Extension u) (hnd : (us.map (·.name)).Nodup) (hne : us ≠ [])
    (limit : ℕ) (kw : List String) : ∀ base ∈ [sdfMro, visitMro, dummyMro, dummysimMro], create limit (us ++ base) kw = .error .recursionError := by
  have key : ∀ (c : PyClass) (rest : List PyClass) (i : Init), abstracts (c :: rest) = [] → c.init = some i →
      i.kwargs = true ∧ i.super = some .dynamic → create limit (us ++ c :: rest) kw = .error .recursionError := by
    intro c rest i h1 h2 h3
    unfold create
    rw [if_neg (by simpa using extension_abstracts hu h1)]
    exact runInit_endless hu hnd hne h2 h3 limit [] us rfl kw
  intro base hb
  simp only [List.mem_cons, List.not_mem_nil, or_false] at hb
  rcases hb with rfl | rfl | rfl | rfl
  · exact key sdfreader dumpBase _ (by decide +kernel) rfl (by decide)
  · exact key visitreader simBase _ (by decide +kernel) rfl (by decide)
  · exact key dummyreader dumpBase _ (by decide +kernel) rfl (by decide)
  · exact key dummysim simBase _ (by decide +kernel) rfl (by decide)

/-- C133 (part): all readers which `chooseCode` selects can be created, with the keywords they take themselves; the name is accepted by all but
`SmileiReader`. Every `__init__` which has to run does so once. -/
theorem readers_create_partial {limit : ℕ} (h : 5 ≤ limit) :
    (∀ kw ⊆ ["name"], create limit sdfMro kw = .ok ["Sdfreader", "Dumpreader_ifc", "FieldAnalyzer"]) ∧
    (∀ kw ⊆ ["name", "dumpreadercls"], create limit visitMro kw = .ok ["Visitreader", "Simulationreader_ifc"]) ∧
    (∀ kw ⊆ ["name", "iteration"], create limit openPMDMro kw = .ok ["OpenPMDreader", "Dumpreader_ifc", "FieldAnalyzer"]) ∧
    (∀ kw ⊆ ["name", "iteration"], create limit fbpicMro kw = .ok ["FbpicReader", "OpenPMDreader", "Dumpreader_ifc", "FieldAnalyzer"]) ∧
    (∀ kw ⊆ ["name", "dumpreadercls"], create limit fileSeriesMro kw = .ok ["FileSeries", "Simulationreader_ifc"]) ∧
    (∀ kw ⊆ ["name", "dumpreadercls"], create limit fbpicSeriesMro kw = .ok ["FbpicFileSeries", "FileSeries", "Simulationreader_ifc"]) ∧
    (∀ kw ⊆ ["iteration"], create limit smileiMro kw = .ok ["SmileiReader", "Dumpreader_ifc", "FieldAnalyzer"]) ∧
    (∀ kw ⊆ ["name", "dumpreadercls"], create limit smileiSeriesMro kw = .ok ["SmileiSeries", "Simulationreader_ifc"]) ∧
    (∀ kw ⊆ ["name", "dimensions", "randfunc", "seed"], create limit dummyMro kw = .ok ["Dummyreader", "Dumpreader_ifc", "FieldAnalyzer"]) ∧
    (∀ kw ⊆ ["name", "dimensions"], create limit dummysimMro kw = .ok ["Dummysim", "Simulationreader_ifc"]) := by
  obtain ⟨m, rfl⟩ : ∃ m, limit = m + 5 := ⟨limit - 5, by omega⟩
  have key : ∀ (a b kw : List String), kw ⊆ "name" :: a → (∀ k ∈ a, k ∈ b) →
      (kw.filter fun k => decide (k ∉ b)).filter (fun k => decide (k ∉ ["name"])) = [] := by
    intro a b kw h hab
    rw [List.filter_filter, List.filter_eq_nil_iff]
    intro k hk
    rcases List.mem_cons.1 (h hk) with rfl | h1
    · simp
    · simp [hab k h1]
  refine ⟨fun kw hk => ?_, fun kw hk => ?_, fun kw hk => ?_, fun kw hk => ?_, fun kw hk => ?_, fun kw hk => ?_, fun kw hk => ?_, fun kw hk => ?_,
    fun kw hk => ?_, fun kw hk => ?_⟩
  · have := key [] [] kw hk (by simp)
    unfold create
    rw [if_neg (by decide +kernel)]
    simp [runInit, sdfMro, sdfreader, dumpBase, dumpreaderIfc, fieldAnalyzer, findInit, superStart] at this ⊢
    split_ifs with h1 <;> first | rfl | (exfalso; grind)
  · have := key ["dumpreadercls"] ["dumpreadercls"] kw hk (by simp)
    unfold create
    rw [if_neg (by decide +kernel)]
    simp [runInit, visitMro, visitreader, simBase, simulationreaderIfc, pySequence, findInit, superStart] at this ⊢
    split_ifs with h1 <;> first | rfl | (exfalso; grind)
  · have := key ["iteration"] ["iteration"] kw hk (by simp)
    unfold create
    rw [if_neg (by decide +kernel)]
    simp [runInit, openPMDMro, openPMDreader, dumpBase, dumpreaderIfc, fieldAnalyzer, findInit, superStart] at this ⊢
    split_ifs with h1 <;> first | rfl | (exfalso; grind)
  · have := key ["iteration"] ["iteration"] kw hk (by simp)
    unfold create
    rw [if_neg (by decide +kernel)]
    simp [runInit, fbpicMro, fbpicReader, openPMDMro, openPMDreader, dumpBase, dumpreaderIfc, fieldAnalyzer, findInit, superStart] at this ⊢
    split_ifs with h1 <;> first | rfl | (exfalso; grind)
  · have := key ["dumpreadercls"] ["dumpreadercls"] kw hk (by simp)
    unfold create
    rw [if_neg (by decide +kernel)]
    simp [runInit, fileSeriesMro, fileSeries, simBase, simulationreaderIfc, pySequence, findInit, superStart] at this ⊢
    split_ifs with h1 <;> first | rfl | (exfalso; grind)
  · have := key ["dumpreadercls"] ["dumpreadercls"] kw hk (by simp)
    unfold create
    rw [if_neg (by decide +kernel)]
    simp [runInit, fbpicSeriesMro, fbpicFileSeries, fileSeriesMro, fileSeries, simBase, simulationreaderIfc, pySequence, findInit, superStart] at this ⊢
    split_ifs with h1 <;> first | rfl | (exfalso; grind)
  · have : ∀ x ∈ kw, x = "iteration" := fun x hx => by simpa using hk hx
    unfold create
    rw [if_neg (by decide +kernel)]
    simp [runInit, smileiMro, smileiReader, openPMDMro, openPMDreader, dumpBase, dumpreaderIfc, fieldAnalyzer, findInit, superStart] at this ⊢
    split_ifs with h1 <;> first | rfl | (exfalso; grind)
  · have := key ["dumpreadercls"] ["dumpreadercls"] kw hk (by simp)
    unfold create
    rw [if_neg (by decide +kernel)]
    simp [runInit, smileiSeriesMro, smileiSeries, simBase, simulationreaderIfc, pySequence, findInit, superStart] at this ⊢
    split_ifs with h1 <;> first | rfl | (exfalso; grind)
  · have := key ["dimensions", "randfunc", "seed"] ["dimensions", "randfunc", "seed"] kw hk (by simp)
    unfold create
    rw [if_neg (by decide +kernel)]
    simp [runInit, dummyMro, dummyreader, dumpBase, dumpreaderIfc, fieldAnalyzer, findInit, superStart] at this ⊢
    split_ifs with h1 <;> first | rfl | (exfalso; grind)
  · have := key ["dimensions"] ["dimensions"] kw hk (by simp)
    unfold create
    rw [if_neg (by decide +kernel)]
    simp [runInit, dummysimMro, dummysim, simBase, simulationreaderIfc, pySequence, findInit, superStart] at this ⊢
    split_ifs with h1 <;> first | rfl | (exfalso; grind)

theorem allNamed_of {base : List PyClass} (h : (base.all fun c => match c.init with
    | some ⟨_, _, some s⟩ => base.any fun d => decide (s = .named d.name)
    | _ => true) = true) : AllNamed base := by
  intro c hc i hi s hs
  have h1 := List.all_eq_true.1 h c hc
  obtain ⟨p, k, t⟩ := i
  simp only at hs
  rw [hi, hs] at h1
  obtain ⟨d, h2, h3⟩ := List.any_eq_true.1 h1
  exact ⟨d, h2, of_decide_eq_true h3⟩

/-- C133 (part): the readers for openPMD, fbpic and Smilei and their series can be extended by any number of classes, each of which may take
keywords of its own. -/
theorem readers_extend_partial {us : List PyClass} (hu : ∀ u ∈ us, Extension u) (hnd : (us.map (·.name)).Nodup) {limit : ℕ}
    (hl : 5 + us.length ≤ limit) (kw : List String)
    (hd : ∀ u ∈ us, ∀ d ∈ fbpicMro ++ smileiMro ++ fbpicSeriesMro ++ smileiSeriesMro, u.name ≠ d.name) :
    (leftKeywords us kw ⊆ ["name", "iteration"] →
      create limit (us ++ openPMDMro) kw = .ok (withInit us ++ ["OpenPMDreader", "Dumpreader_ifc", "FieldAnalyzer"]) ∧
      create limit (us ++ fbpicMro) kw = .ok (withInit us ++ ["FbpicReader", "OpenPMDreader", "Dumpreader_ifc", "FieldAnalyzer"])) ∧
    (leftKeywords us kw ⊆ ["iteration"] →
      create limit (us ++ smileiMro) kw = .ok (withInit us ++ ["SmileiReader", "Dumpreader_ifc", "FieldAnalyzer"])) ∧
    (leftKeywords us kw ⊆ ["name", "dumpreadercls"] →
      create limit (us ++ fileSeriesMro) kw = .ok (withInit us ++ ["FileSeries", "Simulationreader_ifc"]) ∧
      create limit (us ++ fbpicSeriesMro) kw = .ok (withInit us ++ ["FbpicFileSeries", "FileSeries", "Simulationreader_ifc"]) ∧
      create limit (us ++ smileiSeriesMro) kw = .ok (withInit us ++ ["SmileiSeries", "Simulationreader_ifc"])) := by
  have hd' : ∀ base : List PyClass, (∀ d ∈ base, d ∈ fbpicMro ++ smileiMro ++ fbpicSeriesMro ++ smileiSeriesMro) → ∀ u ∈ us, ∀ d ∈ base, u.name ≠ d.name :=
    fun base hb u h d hd2 => hd u h d (hb d hd2)
  refine ⟨fun hk => ⟨?_, ?_⟩, fun hk => ?_, fun hk => ⟨?_, ?_, ?_⟩⟩
  · exact extended_creates hu hnd (allNamed_of (by decide +kernel)) (hd' _ (by decide +kernel))
      (fun k h => (readers_create_partial h).2.2.1 _ hk) hl
  · exact extended_creates hu hnd (allNamed_of (by decide +kernel)) (hd' _ (by decide +kernel))
      (fun k h => (readers_create_partial h).2.2.2.1 _ hk) hl
  · exact extended_creates hu hnd (allNamed_of (by decide +kernel)) (hd' _ (by decide +kernel))
      (fun k h => (readers_create_partial h).2.2.2.2.2.2.1 _ hk) hl
  · exact extended_creates hu hnd (allNamed_of (by decide +kernel)) (hd' _ (by decide +kernel))
      (fun k h => (readers_create_partial h).2.2.2.2.1 _ hk) hl
  · exact extended_creates hu hnd (allNamed_of (by decide +kernel)) (hd' _ (by decide +kernel))
      (fun k h => (readers_create_partial h).2.2.2.2.2.1 _ hk) hl
  · exact extended_creates hu hnd (allNamed_of (by decide +kernel)) (hd' _ (by decide +kernel))
      (fun k h => (readers_create_partial h).2.2.2.2.2.2.2.1 _ hk) hl

/-- C133 (part): classes derived directly from the interface for dumps, with all required methods, can be created. -/
theorem user_dumpreader_creates {u : PyClass} (hu : Extension u) (hm : ∀ m ∈ dumpreaderIfc.abstract, m ∈ u.methods)
    (hn : u.name ≠ "Dumpreader_ifc" ∧ u.name ≠ "FieldAnalyzer") {limit : ℕ} (hl : 4 ≤ limit) (kw : List String) (hk : leftKeywords [u] kw ⊆ ["name"]) :
    create limit (u :: dumpBase) kw = .ok (withInit [u] ++ ["Dumpreader_ifc", "FieldAnalyzer"]) := by
  have hab : abstracts (u :: dumpBase) = [] := by
    obtain ⟨n, a, ms, i⟩ := u
    have := hu.methods
    simp only at this
    subst this
    exact (user_dumpreader n ms i).2 hm
  have hdisj : ∀ v ∈ [u], ∀ d ∈ dumpBase, v.name ≠ d.name := by
    intro v hv d hd
    rw [List.mem_singleton.1 hv]
    simp only [dumpBase, List.mem_cons, List.not_mem_nil, or_false] at hd
    rcases hd with rfl | rfl
    · exact hn.1
    · exact hn.2
  have hfil : (leftKeywords [u] kw).filter (fun k => decide (k ∉ ["name"])) = [] := by
    rw [List.filter_eq_nil_iff]
    intro k h
    simpa using hk h
  have hrun : ∀ k, 2 ≤ k → runInit ([u] ++ dumpBase) k dumpBase (leftKeywords [u] kw) = .ok ["Dumpreader_ifc", "FieldAnalyzer"] := by
    intro k h
    obtain ⟨m, rfl⟩ : ∃ m, k = m + 2 := ⟨k - 2, by omega⟩
    rw [runInit_extended (allNamed_of (by decide +kernel)) hdisj _ _ (fun _ h => h)]
    have f1 : findInit dumpBase = some (dumpreaderIfc, ⟨["name"], false, some (.named "Dumpreader_ifc")⟩) := by decide +kernel
    have f2 : superStart dumpBase (.named "Dumpreader_ifc") = [fieldAnalyzer] := by decide +kernel
    simp only [runInit, f1, f2, hfil]
    rfl
  obtain ⟨k, h1, h2⟩ := runInit_chain (pre := []) (us := [u]) (base := dumpBase) (by simpa using hu) (by simp) 2 kw limit (by simpa using by omega)
  unfold create
  rw [if_neg (by simpa using hab)]
  rw [List.nil_append] at h2
  have h3 := h2.trans (by rw [hrun k h1])
  exact h3

/-- C133, violated: no reader for VSim can be created, whatever the arguments are. -/
theorem vsim_abstract_violated (limit : ℕ) (kw : List String) :
    create limit hdf5Mro kw = .error .typeError ∧ create limit vSimMro kw = .error .typeError :=
  ⟨if_pos (by decide +kernel), if_pos (by decide +kernel)⟩

/-- C133, violated: the reader for Smilei does not accept a name. -/
theorem smilei_name_violated (limit : ℕ) (kw : List String) (h : "name" ∈ kw) : create (limit + 1) smileiMro kw = .error .typeError := by
  unfold create
  rw [if_neg (by decide +kernel)]
  have : findInit smileiMro = some (smileiReader, ⟨["iteration"], false, some (.named "OpenPMDreader")⟩) := by decide +kernel
  simp only [runInit, this]
  rw [if_pos]
  refine ⟨by trivial, fun h0 => ?_⟩
  have := List.filter_eq_nil_iff.1 h0 "name" h
  exact absurd this (by decide)

/-- A class as users write them. -/
theorem extension_example : Extension ⟨"MyReader", [], ["Ex"], some ⟨["flag"], true, some (.named "MyReader")⟩⟩ ∧
    Extension ⟨"Empty", [], [], none⟩ :=
  ⟨⟨rfl, fun i h => by cases h; exact ⟨rfl, rfl⟩⟩, ⟨rfl, fun i h => by cases h⟩⟩

example := readers_extend_partial (us := [⟨"Empty", [], [], none⟩, ⟨"MyReader", [], ["Ex"], some ⟨["flag"], true, some (.named "MyReader")⟩⟩])
  (by simpa using ⟨extension_example.2, extension_example.1⟩) (by decide) (limit := 1000) (by decide) ["flag", "name"] (by decide +kernel)
example : leftKeywords [⟨"Empty", [], [], none⟩, ⟨"MyReader", [], ["Ex"], some ⟨["flag"], true, some (.named "MyReader")⟩⟩] ["flag", "name"] =
    ["name"] := by decide +kernel
example := extended_recursion_violated (us := [⟨"Empty", [], [], none⟩]) (by simpa using extension_example.2) (by decide) (by decide) 1000 []
example := readers_create_partial (limit := 1000) (by decide)
example : create 1000 smileiMro ["name"] = .error .typeError := smilei_name_violated 999 _ (by decide)
example : Extension ⟨"Mine", [], dumpreaderIfc.abstract, none⟩ := ⟨rfl, fun i h => by cases h⟩

end Postpic.Props
