import Verif.Lemmas.Particles

/-!
# Properties of filtered species and collections (C08, C09, C11, C12)
-/

set_option autoImplicit false

namespace Postpic.Props

open Postpic Postpic.Spec Postpic.Particles

variable {V : Type}

/-- The user applies an operation to the species and goes on with the object returned (or the old
one, if the operation only reads or fails). -/
def implStep (toInt : V → Int) (s : SS V) : Op V → Out V × SS V
  | .read k => match readAtomic s k with
    | (.error e, s') => (.error e, s')
    | (.ok (.scalar v), s') => (.number v, s')
    | (.ok (.array l), s') => (.values (l.map some), s')
    | (.ok (.empty2 _), s') => (.values [], s')
  | .length => match len s with
    | (.ok n, s') => (.len n, s')
    | (.error e, s') => (.error e, s')
  | .compress c => match compressBool s c with
    | (.ok t, _) => (.done, t)
    | (.error e, s') => (.error e, s')
  | .select ids => match compressInt toInt s ids with
    | (.ok t, _) => (.done, t)
    | (.error e, s') => (.error e, s')
  | .filter k p => match filterBy s k p with
    | (.ok t, _) => (.done, t)
    | (.error e, s') => (.error e, s')
  | .invert => (.done, invert s)
  | .uncompress => (.done, uncompress s)

/-- A whole history. -/
def implRun (toInt : V → Int) : SS V → List (Op V) → List (Out V)
  | _, [] => []
  | s, op :: ops => (implStep toInt s op).1 :: implRun toInt (implStep toInt s op).2 ops

/-- What is read is the data of the selected particles. -/
theorem index_sel {N : ℕ} {m : Mask} (hm : ∀ b, m = .bools b → b.length = N) (l : List V)
    (hl : l.length = N) :
    (∃ l0, index m l = .ok (.array l0) ∧ l0.map some = (selOf N m).map fun i => l[i]?) ∨
    (index m l = .ok (.empty2 N) ∧ selOf N m = []) := by
  cases m with
  | none => exact Or.inl ⟨l, rfl, (range_get l N hl).symm⟩
  | zero => exact Or.inr ⟨by simp [index, hl], rfl⟩
  | bools b =>
    have hb := hm b rfl
    exact Or.inl ⟨pick b l, by simp [index, hb, hl], (pick_range_get b l N hl).symm⟩

theorem pick_sel {l0 : List V} {sel : List ℕ} {f : ℕ → Option V} (h : l0.map some = sel.map f)
    (p : V → Bool) : pick (l0.map p) sel = sel.filter fun i => (f i).any p := by
  have : l0.map p = sel.map fun i => (f i).any p := by
    have := congrArg (List.map fun o => Option.any p o) h
    simpa [List.map_map, Function.comp_def] using this
  rw [this, pick_map_self]

theorem dataAt_array {d : Dump V} {k : Key} {l : List V} (h : fetch d k = .ok (.array l)) :
    dataAt d k = fun i => l[i]? := by
  funext i; simp [dataAt, h]

/-- One step of the simulation. -/
theorem step_refines (toInt : V → Int) (s : SS V) (N : ℕ) (h : Inv s N) (op : Op V)
    (hadm : match op with
      | .select ids => ids ≠ [] ∧ selOf N s.mask ≠ []
      | .filter _ _ => selOf N s.mask ≠ []
      | _ => True) :
    (implStep toInt s op).1 = (specStep toInt s.dump N (selOf N s.mask) op).1 ∧
    Inv (implStep toInt s op).2 N ∧ (implStep toInt s op).2.dump = s.dump ∧
    selOf N (implStep toInt s op).2.mask = (specStep toInt s.dump N (selOf N s.mask) op).2 := by
  have hm := h.mask
  cases op with
  | read k =>
    obtain ⟨h1, h2, h3, h4⟩ := readAtomic_spec h k
    simp only [implStep, specStep]
    generalize readAtomic s k = r at *
    obtain ⟨r1, s'⟩ := r
    simp only at h1 h2 h3 h4
    subst h1
    unfold view
    cases hf : fetch s.dump k with
    | error e => exact ⟨rfl, h2, h3, by rw [h4]⟩
    | ok e =>
      cases e with
      | scalar v => exact ⟨rfl, h2, h3, by rw [h4]⟩
      | array l =>
        simp only
        rcases index_sel hm l (h.wf.1 k l hf) with ⟨l0, hi, hl0⟩ | ⟨hi, hs⟩
        · rw [hi]
          refine ⟨?_, h2, h3, by rw [h4]⟩
          simp only
          rw [dataAt_array hf, hl0]
        · rw [hi]
          refine ⟨?_, h2, h3, by rw [h4]⟩
          simp [hs]
  | length =>
    obtain ⟨h1, h2, h3, h4⟩ := len_spec h
    simp only [implStep, specStep]
    generalize len s = r at *
    obtain ⟨r1, s'⟩ := r
    simp only at h1 h2 h3 h4
    subst h1
    exact ⟨rfl, h2, h3, by rw [h4]⟩
  | compress c =>
    obtain ⟨h1, h2, h3, h4⟩ := compressBool_spec h c
    simp only [implStep, specStep]
    generalize compressBool s c = r at *
    obtain ⟨r1, s'⟩ := r
    simp only at h1 h2 h3 h4
    by_cases hc : c.length = (selOf N s.mask).length
    · rw [if_neg (by simp [hc])] at h4 ⊢
      obtain ⟨t, rfl, ht1, ht2, _, ht4⟩ := h4
      exact ⟨rfl, ht1, ht2, by rw [ht4, pick_eq_filter]⟩
    · rw [if_pos (by simpa using hc)] at h4 ⊢
      subst h4
      exact ⟨rfl, h1, h2, by rw [h3]⟩
  | select ids =>
    obtain ⟨hne, hsel⟩ := hadm
    obtain ⟨h1, h2, h3, h4⟩ := readAtomic_spec h .id
    simp only [implStep, specStep, compressInt]
    generalize readAtomic s .id = r at *
    obtain ⟨r1, s'⟩ := r
    simp only at h1 h2 h3 h4
    subst h1
    unfold view
    cases hf : fetch s.dump .id with
    | error e => exact ⟨rfl, h2, h3, by rw [h4]⟩
    | ok e =>
      cases e with
      | scalar v => exact ⟨rfl, h2, h3, by rw [h4]⟩
      | array l =>
        simp only
        rcases index_sel hm l (h.wf.1 .id l hf) with ⟨l0, hi, hl0⟩ | ⟨_, hs⟩
        · rw [hi]
          simp only
          have hmap : (l0.mapM fun v => idTest (sortIds ids) (toInt v))
              = .ok (l0.map fun v => decide (toInt v ∈ ids)) :=
            mapM_ok _ _ _ (fun v _ => idTest_spec ids hne (toInt v))
          simp only [hmap]
          obtain ⟨g1, g2, g3, g4⟩ := compressBool_spec h2 (l0.map fun v => decide (toInt v ∈ ids))
          generalize compressBool s' (l0.map fun v => decide (toInt v ∈ ids)) = r at *
          obtain ⟨r1, s''⟩ := r
          simp only at g1 g2 g3 g4
          have hlen : l0.length = (selOf N s.mask).length := by
            have := congrArg List.length hl0
            simpa using this
          rw [if_neg (by simp [h4, hlen])] at g4
          obtain ⟨t, rfl, ht1, ht2, _, ht4⟩ := g4
          refine ⟨rfl, ht1, ht2.trans h3, ?_⟩
          simp only
          rw [ht4, h4, pick_sel hl0]
          apply List.filter_congr
          intro i _
          rw [dataAt_array hf]
          simp only
          cases l[i]? <;> simp
        · exact absurd hs hsel
  | filter k p =>
    obtain ⟨h1, h2, h3, h4⟩ := readAtomic_spec h k
    simp only [implStep, specStep, filterBy]
    generalize readAtomic s k = r at *
    obtain ⟨r1, s'⟩ := r
    simp only at h1 h2 h3 h4
    subst h1
    unfold view
    cases hf : fetch s.dump k with
    | error e => exact ⟨rfl, h2, h3, by rw [h4]⟩
    | ok e =>
      cases e with
      | scalar v => exact ⟨rfl, h2, h3, by rw [h4]⟩
      | array l =>
        simp only
        rcases index_sel hm l (h.wf.1 k l hf) with ⟨l0, hi, hl0⟩ | ⟨_, hs⟩
        · rw [hi]
          simp only
          obtain ⟨g1, g2, g3, g4⟩ := compressBool_spec h2 (l0.map p)
          generalize compressBool s' (l0.map p) = r at *
          obtain ⟨r1, s''⟩ := r
          simp only at g1 g2 g3 g4
          have hlen : l0.length = (selOf N s.mask).length := by
            have := congrArg List.length hl0
            simpa using this
          rw [if_neg (by simp [h4, hlen])] at g4
          obtain ⟨t, rfl, ht1, ht2, _, ht4⟩ := g4
          refine ⟨rfl, ht1, ht2.trans h3, ?_⟩
          simp only
          rw [ht4, h4, pick_sel hl0, dataAt_array hf]
        · exact absurd hs hadm
  | invert => exact ⟨rfl, inv_invert h, rfl, selOf_invert h⟩
  | uncompress => exact ⟨rfl, inv_fresh _ N h.wf, rfl, rfl⟩

theorem run_refines (toInt : V → Int) (N : ℕ) (ops : List (Op V)) (s : SS V) (h : Inv s N)
    (hadm : Admissible toInt s.dump N (selOf N s.mask) ops) :
    implRun toInt s ops = specRun toInt s.dump N (selOf N s.mask) ops := by
  induction ops generalizing s with
  | nil => rfl
  | cons op ops ih =>
    obtain ⟨ha, hrest⟩ := hadm
    obtain ⟨h1, h2, h3, h4⟩ := step_refines toInt s N h op ha
    simp only [implRun, specRun]
    rw [h1, ih _ h2 (by rw [h3, h4]; exact hrest), h3, h4]

/-- The states a species can be in: everything that any history (whether or not operations fail)
leads to. -/
def implState (toInt : V → Int) (s : SS V) (ops : List (Op V)) : SS V :=
  ops.foldl (fun s op => (implStep toInt s op).2) s

theorem compressBool_inv {s : SS V} {N : ℕ} (h : Inv s N) (c : List Bool) :
    Inv (compressBool s c).2 N ∧ ∀ t, (compressBool s c).1 = .ok t → Inv t N := by
  obtain ⟨h1, h2, h3, h4⟩ := compressBool_spec h c
  refine ⟨h1, fun t ht => ?_⟩
  split at h4
  · rw [h4] at ht; cases ht
  · obtain ⟨t', ht', hinv, _⟩ := h4
    rw [ht'] at ht; cases ht
    exact hinv

theorem step_inv (toInt : V → Int) (s : SS V) (N : ℕ) (h : Inv s N) (op : Op V) :
    Inv (implStep toInt s op).2 N := by
  have key : ∀ (s : SS V) c, Inv s N → Inv (match compressBool s c with
      | (.ok t, _) => ((Out.done : Out V), t)
      | (.error e, s') => (Out.error e, s')).2 N := by
    intro s c h
    obtain ⟨h1, h2⟩ := compressBool_inv h c
    generalize compressBool s c = r at *
    obtain ⟨r1, s'⟩ := r
    cases r1 with
    | error e => exact h1
    | ok t => exact h2 t rfl
  cases op with
  | read k => exact (step_refines toInt s N h (.read k) trivial).2.1
  | length => exact (step_refines toInt s N h .length trivial).2.1
  | compress c => exact (step_refines toInt s N h (.compress c) trivial).2.1
  | invert => exact (step_refines toInt s N h .invert trivial).2.1
  | uncompress => exact (step_refines toInt s N h .uncompress trivial).2.1
  | select ids =>
    obtain ⟨h1, h2, h3, h4⟩ := readAtomic_spec h .id
    simp only [implStep, compressInt]
    generalize readAtomic s .id = r at *
    obtain ⟨r1, s'⟩ := r
    simp only at h2
    rcases r1 with e | (v | l | n)
    · exact h2
    · exact h2
    · simp only
      cases l.mapM fun v => idTest (sortIds ids) (toInt v) with
      | error e => exact h2
      | ok bools => exact key s' bools h2
    · exact h2
  | filter k p =>
    obtain ⟨h1, h2, h3, h4⟩ := readAtomic_spec h k
    simp only [implStep, filterBy]
    generalize readAtomic s k = r at *
    obtain ⟨r1, s'⟩ := r
    simp only at h2
    rcases r1 with e | (v | l | n)
    · exact h2
    · exact h2
    · exact key s' _ h2
    · exact h2

/-- Every reachable state satisfies the invariant used in the theorems below. -/
theorem reachable_inv (toInt : V → Int) (d : Dump V) (N : ℕ) (hd : WellFormed d N)
    (ops : List (Op V)) : Inv (implState toInt (fresh d) ops) N := by
  have : ∀ (ops : List (Op V)) (s : SS V), Inv s N → Inv (implState toInt s ops) N := by
    intro ops
    induction ops with
    | nil => intro s h; exact h
    | cons op ops ih => intro s h; exact ih _ (step_inv toInt s N h op)
  exact this ops _ (inv_fresh d N hd)

/-! ## C08 -/

/-- For every dump and every history of filters, selections by id, inversions, resets and reads,
the user sees exactly what the specification (a list of selected particles) says. Missing for the
full property: conditions and id lists applied when no particle is left, and empty id lists, see
`filter_after_invert_violated` and `select_empty_violated`. -/
theorem species_history_partial (toInt : V → Int) (d : Dump V) (N : ℕ) (hd : WellFormed d N)
    (ops : List (Op V)) (hadm : Admissible toInt d N (List.range N) ops) :
    implRun toInt (fresh d) ops = specRun toInt d N (List.range N) ops :=
  run_refines toInt N ops (fresh d) (inv_fresh d N hd) hadm

/-- A dump of three particles with weights, positions and ids, for examples. -/
def exDump : Dump Int where
  get := fun k => match k with
    | .weight => some (.scalar 7)
    | .x => some (.array [10, 20, 30])
    | .id => some (.array [3, 1, 2])
    | _ => none
  time := 5
  deduce := fun _ => .error .genericException

theorem exDump_wf : WellFormed exDump 3 := by
  refine ⟨?_, Or.inl ⟨.x, [10, 20, 30], rfl⟩, Or.inl ⟨.x, by simp, [10, 20, 30], rfl⟩⟩
  intro k l h
  cases k <;> simp [fetch, exDump] at h <;> subst h <;> rfl

example : Admissible id exDump 3 (List.range 3)
    [.read .x, .filter .x (fun v => decide (15 < v)), .read .id, .invert, .select [3, 9], .length,
      .uncompress, .read .weight] := by
  simp [Admissible, specStep, fetch, exDump, dataAt, List.range, List.range.loop]

/-- ... and a run: filter, read, invert, read. -/
example : specRun id exDump 3 (List.range 3)
    [.filter .x (fun v => decide (15 < v)), .read .x, .invert, .read .x]
    = [.done, .values [some 20, some 30], .done, .values [some 10]] := by
  rfl

/-- A species with an unknown name of which only the ids are in the dump. -/
def idDump : Dump Int where
  get := fun k => match k with
    | .id => some (.array [3, 1, 2])
    | _ => none
  time := 5
  deduce := fun _ => .error .genericException

/-- **The code violates C08**: the length of a species of three particles which has only ids and a name which is not known is not 3,
the identification of the name raises an exception which is not caught. -/
theorem length_unknown_violated :
    implRun id (fresh idDump) [.length, .compress [false, true, false]] = [.error .genericException, .error .genericException] ∧
    specRun id idDump 3 (List.range 3) [.length, .compress [false, true, false]] = [.len 3, .done] := by
  constructor <;> rfl

/-- **The code violates C08**: after inverting an unfiltered species (nothing left), filtering
raises ValueError instead of returning the empty selection. -/
theorem filter_after_invert_violated :
    implRun id (fresh exDump) [.invert, .filter .x (fun v => decide (15 < v))]
      = [.done, .error .valueError] ∧
    specRun id exDump 3 (List.range 3) [.invert, .filter .x (fun v => decide (15 < v))]
      = [.done, .done] := by
  constructor <;> rfl

/-- **The code violates C08, C09**: an empty list of ids raises IndexError instead of selecting no
particle. -/
theorem select_empty_violated :
    implRun id (fresh exDump) [.select []] = [.error .indexError] ∧
    specRun id exDump 3 (List.range 3) [.select []] = [.done] := by
  have h : sortIds [] = [] := by simp [sortIds]
  constructor
  · simp only [implRun, implStep, compressInt, h]
    rfl
  · rfl

/-! ## C09 -/

/-- Selecting by a non empty list of ids keeps exactly the particles whose id is in the list, in
their order; in every reachable state of the species. Missing for the full property: the empty
list and the state after inverting an unfiltered species. -/
theorem select_by_ids_partial (toInt : V → Int) (s : SS V) (N : ℕ) (h : Inv s N)
    (l : List V) (hid : fetch s.dump .id = .ok (.array l)) (hz : s.mask ≠ .zero)
    (ids : List Int) (hne : ids ≠ []) :
    ∃ t, (compressInt toInt s ids).1 = .ok t ∧ Inv t N ∧ t.dump = s.dump ∧
      selOf N t.mask = (selOf N s.mask).filter
        fun i => (l[i]?).any fun v => decide (toInt v ∈ ids) := by
  obtain ⟨h1, h2, h3, h4⟩ := readAtomic_spec h .id
  have hl := h.wf.1 .id l hid
  have hi : ∃ l0, index s.mask l = .ok (.array l0) ∧
      l0.map some = (selOf N s.mask).map fun i => l[i]? := by
    cases hm : s.mask with
    | none => exact ⟨l, rfl, (range_get l N hl).symm⟩
    | zero => exact absurd hm hz
    | bools b =>
      have hb := h.mask b hm
      exact ⟨pick b l, by simp [index, hb, hl], (pick_range_get b l N hl).symm⟩
  obtain ⟨l0, hi, hl0⟩ := hi
  unfold compressInt
  generalize readAtomic s .id = r at *
  obtain ⟨r1, s'⟩ := r
  simp only at h1 h2 h3 h4
  have : view s.dump s.mask .id = .ok (.array l0) := by simp [view, hid, hi]
  rw [this] at h1
  subst h1
  have hmap : (l0.mapM fun v => idTest (sortIds ids) (toInt v))
      = .ok (l0.map fun v => decide (toInt v ∈ ids)) :=
    mapM_ok _ _ _ (fun v _ => idTest_spec ids hne (toInt v))
  simp only [hmap]
  obtain ⟨g1, g2, g3, g4⟩ := compressBool_spec h2 (l0.map fun v => decide (toInt v ∈ ids))
  have hlen : l0.length = (selOf N s.mask).length := by
    have := congrArg List.length hl0
    simpa using this
  rw [if_neg (by simp [h4, hlen])] at g4
  obtain ⟨t, ht, ht1, ht2, _, ht4⟩ := g4
  refine ⟨t, ht, ht1, ht2.trans h3, ?_⟩
  rw [ht4, h4, pick_sel hl0]

/-- C09 for a collection: each of its species keeps exactly the particles whose id is in the list, in
their order. -/
theorem select_by_ids_collection_partial (toInt : V → Int) (ms : MS V) (Ns : List ℕ)
    (h : List.Forall₂ (fun s N => Inv s N ∧ s.mask ≠ .zero ∧ ∃ l, fetch s.dump .id = .ok (.array l)) ms Ns)
    (ids : List Int) (hne : ids ≠ []) :
    ∃ ms', msCompressInt toInt ids ms = .ok ms' ∧ ms'.length = ms.length ∧
      ∀ (k : ℕ) (s t : SS V) (N : ℕ), ms[k]? = some s → ms'[k]? = some t → Ns[k]? = some N →
        Inv t N ∧ t.dump = s.dump ∧ ∃ l, fetch s.dump .id = .ok (.array l) ∧
          selOf N t.mask = (selOf N s.mask).filter
            fun i => (l[i]?).any fun v => decide (toInt v ∈ ids) := by
  induction h with
  | nil => exact ⟨[], rfl, rfl, by simp⟩
  | @cons s N ms Ns hs _ ih =>
    obtain ⟨ms', h1, h2, h3⟩ := ih
    obtain ⟨hinv, hz, l, hid⟩ := hs
    obtain ⟨t, t1, t2, t3, t4⟩ := select_by_ids_partial toInt s N hinv l hid hz ids hne
    refine ⟨t :: ms', ?_, by simp [h2], ?_⟩
    · unfold msCompressInt at h1 ⊢
      rw [List.mapM_cons, t1, h1]
      rfl
    · intro k s' t' N' e1 e2 e3
      cases k with
      | zero =>
        cases e1
        cases e2
        cases e3
        exact ⟨t2, t3, l, hid, t4⟩
      | succ k => exact h3 k s' t' N' (by simpa using e1) (by simpa using e2) (by simpa using e3)

/-- The time of a species is the time of its dump, however it was filtered, and of any number of
particles. -/
theorem read_time (s : SS V) (N : ℕ) (h : Inv s N) :
    (readAtomic s .time).1 = .ok (.scalar s.dump.time) := by
  rw [(readAtomic_spec h .time).1]
  rfl

example : ∃ t, (compressInt id (fresh exDump) [2, 9, 3, 3]).1 = .ok t ∧ selOf 3 t.mask = [0, 2] := by
  obtain ⟨t, h1, _, _, h4⟩ := select_by_ids_partial id (fresh exDump) 3
    (inv_fresh _ _ exDump_wf) [3, 1, 2] rfl (by simp [fresh]) [2, 9, 3, 3] (by simp)
  exact ⟨t, h1, h4⟩

/-! ## C11: adding collections -/

/-- All species of a collection are in a consistent state; `Ns` are their particle numbers. -/
def Good (ms : MS V) : Prop := ∀ s ∈ ms, ∃ N, Inv s N

/-- `len(p + q) = len(p) + len(q)`. -/
theorem add_len (p q : MS V) (hp : Good p) (hq : Good q) :
    ∃ m n, msLen p = .ok m ∧ msLen q = .ok n ∧ msLen (msAdd p q) = .ok (m + n) := by
  have key : ∀ ms : MS V, Good ms → ∃ ns : List ℕ, (ms.mapM fun s => (len s).1) = .ok ns := by
    intro ms
    induction ms with
    | nil => intro _; exact ⟨[], rfl⟩
    | cons s ms ih =>
      intro h
      obtain ⟨ns, hns⟩ := ih (fun t ht => h t (by simp [ht]))
      obtain ⟨N, hN⟩ := h s (by simp)
      refine ⟨(selOf N s.mask).length :: ns, ?_⟩
      rw [List.mapM_cons, (len_spec hN).1, hns]
      rfl
  obtain ⟨a, ha⟩ := key p hp
  obtain ⟨b, hb⟩ := key q hq
  refine ⟨a.sum, b.sum, ?_, ?_, ?_⟩
  · simp [msLen, ha, bind, Except.bind, pure, Except.pure]
  · simp [msLen, hb, bind, Except.bind, pure, Except.pure]
  · simp [msLen, msAdd, ha, hb, bind, Except.bind, pure, Except.pure]

/-- No species of the collection is in the state "inverted while unfiltered". -/
def NoZero (ms : MS V) : Prop := ∀ s ∈ ms, s.mask ≠ .zero

/-- The values of a property for the particles of one species, single numbers repeated for each
particle (specification). -/
def speciesValues (s : SS V) (N : ℕ) (k : Key) : List (Option V) :=
  (selOf N s.mask).map (dataAt s.dump k)

theorem ssdata_spec (s : SS V) (N : ℕ) (h : Inv s N) (hz : s.mask ≠ .zero) (k : Key)
    (e : Entry V) (hf : fetch s.dump k = .ok e) :
    ∃ l, (ssdata s k).1 = .ok (.array l) ∧ l.map some = speciesValues s N k := by
  obtain ⟨h1, h2, h3, h4⟩ := readAtomic_spec h k
  unfold ssdata
  generalize readAtomic s k = r at *
  obtain ⟨r1, s'⟩ := r
  simp only at h1 h2 h3 h4
  cases e with
  | scalar v =>
    have hv : view s.dump s.mask k = .ok (.scalar v) := by simp [view, hf]
    rw [hv] at h1
    subst h1
    obtain ⟨g1, g2, g3, g4⟩ := len_spec h2
    generalize hr : len s' = r at *
    obtain ⟨r1, s''⟩ := r
    simp only at g1
    subst g1
    refine ⟨List.replicate (selOf N s'.mask).length v, by simp only [hr], ?_⟩
    rw [h4]
    simp only [speciesValues]
    have : dataAt s.dump k = fun _ => some v := by funext i; simp [dataAt, hf]
    rw [this]
    simp
  | array l =>
    have hl := h.wf.1 k l hf
    rcases index_sel h.mask l hl with ⟨l0, hi, hl0⟩ | ⟨hi, hs⟩
    · have hv : view s.dump s.mask k = .ok (.array l0) := by simp [view, hf, hi]
      rw [hv] at h1
      subst h1
      refine ⟨l0, rfl, ?_⟩
      rw [hl0, speciesValues, dataAt_array hf]
    · exfalso
      cases hm : s.mask with
      | none => rw [hm] at hi; cases hi
      | zero => exact hz hm
      | bools b =>
        rw [hm] at hi
        simp only [index] at hi
        split at hi <;> cases hi

theorem hstack_arrays (ls : List (List V)) :
    hstack (ls.map fun l => Arr.array l) = .ok (.array ls.flatten) := by
  induction ls with
  | nil => rfl
  | cons l ls ih =>
    cases ls with
    | nil => simp [hstack]
    | cons m ls =>
      simp only [List.map_cons] at ih ⊢
      unfold hstack
      rw [ih]
      rfl

/-- Reading a property from a collection gives the values of the selected particles of all species
in order. -/
theorem msRead_spec (ms : MS V) (k : Key) (hg : Good ms) (hz : NoZero ms)
    (hk : ∀ s ∈ ms, ∃ e, fetch s.dump k = .ok e) :
    ∃ ls : List (List V), msData ms k = .ok (ls.map fun l => Arr.array l) ∧
      msRead ms k = .ok (.array ls.flatten) ∧
      ∀ (i : ℕ) (s : SS V), ms[i]? = some s → ∀ N, Inv s N →
        ∃ l : List V, ls[i]? = some l ∧ l.map some = speciesValues s N k := by
  have key : ∀ ms : MS V, Good ms → NoZero ms → (∀ s ∈ ms, ∃ e, fetch s.dump k = .ok e) →
      ∃ ls : List (List V), msData ms k = .ok (ls.map fun l => Arr.array l) ∧
        ∀ (i : ℕ) (s : SS V), ms[i]? = some s → ∀ N, Inv s N →
          ∃ l : List V, ls[i]? = some l ∧ l.map some = speciesValues s N k := by
    intro ms
    induction ms with
    | nil => intro _ _ _; exact ⟨[], rfl, by simp⟩
    | cons s ms ih =>
      intro hg hz hk
      obtain ⟨ls, h1, h2⟩ := ih (fun t ht => hg t (by simp [ht])) (fun t ht => hz t (by simp [ht]))
        (fun t ht => hk t (by simp [ht]))
      obtain ⟨N, hN⟩ := hg s (by simp)
      obtain ⟨e, he⟩ := hk s (by simp)
      obtain ⟨l, hl, hl'⟩ := ssdata_spec s N hN (hz s (by simp)) k e he
      refine ⟨l :: ls, ?_, ?_⟩
      · unfold msData at h1 ⊢
        rw [List.mapM_cons, hl, h1]
        rfl
      · intro i t hi M hM
        cases i with
        | zero =>
          simp only [List.getElem?_cons_zero, Option.some.injEq] at hi ⊢
          subst hi
          refine ⟨l, rfl, ?_⟩
          obtain ⟨l2, hl2, hl2'⟩ := ssdata_spec s M hM (hz s (by simp)) k e he
          rw [hl] at hl2
          cases hl2
          exact hl2'
        | succ i =>
          simp only [List.getElem?_cons_succ] at hi ⊢
          exact h2 i t hi M hM
  obtain ⟨ls, h1, h2⟩ := key ms hg hz hk
  refine ⟨ls, h1, ?_, h2⟩
  unfold msRead
  cases ms with
  | nil =>
    simp only [List.isEmpty_nil, if_true]
    have : ls = [] := by
      simp only [msData, List.mapM_nil, pure, Except.pure, Except.ok.injEq] at h1
      simpa using h1.symm
    subst this
    rfl
  | cons s ms =>
    simp only [List.isEmpty_cons, Bool.false_eq_true, if_false, h1, bind, Except.bind]
    exact hstack_arrays ls

/-- Reading from `p + q` gives the values of `p` followed by those of `q`. Missing for the full
property: collections with a species that was inverted while unfiltered, see
`add_inverted_violated`. -/
theorem add_read_partial (p q : MS V) (k : Key) (hp : Good p) (hq : Good q)
    (hzp : NoZero p) (hzq : NoZero q)
    (hkp : ∀ s ∈ p, ∃ e, fetch s.dump k = .ok e) (hkq : ∀ s ∈ q, ∃ e, fetch s.dump k = .ok e) :
    ∃ a b, msRead p k = .ok (.array a) ∧ msRead q k = .ok (.array b) ∧
      msRead (msAdd p q) k = .ok (.array (a ++ b)) := by
  obtain ⟨la, a1, a2, _⟩ := msRead_spec p k hp hzp hkp
  obtain ⟨lb, b1, b2, _⟩ := msRead_spec q k hq hzq hkq
  obtain ⟨lc, c1, c2, _⟩ := msRead_spec (msAdd p q) k
    (fun s hs => (List.mem_append.1 hs).elim (hp s) (hq s))
    (fun s hs => (List.mem_append.1 hs).elim (hzp s) (hzq s))
    (fun s hs => (List.mem_append.1 hs).elim (hkp s) (hkq s))
  refine ⟨_, _, a2, b2, ?_⟩
  rw [c2]
  have : msData (msAdd p q) k = .ok ((la ++ lb).map fun l => Arr.array l) := by
    unfold msData at *
    unfold msAdd
    rw [List.mapM_append, a1, b1]
    simp [bind, Except.bind, pure, Except.pure]
  rw [this] at c1
  simp only [Except.ok.injEq] at c1
  have hinj : la ++ lb = lc := by
    apply List.map_injective_iff.2 _ c1
    intro x y hxy; cases hxy; rfl
  rw [← hinj, List.flatten_append]

/-- `p += q` for different objects is the same as `p + q`. -/
theorem iadd_eq_add (p q : MS V) : iadd p q = msAdd p q := by
  unfold iadd msAdd
  induction q generalizing p with
  | nil => simp
  | cons s q ih => rw [List.foldl_cons, ih]; simp

/-- **The code violates C11**: after inverting an unfiltered species, adding another species and
reading fails with a ValueError (dimension mismatch in `hstack`). -/
theorem add_inverted_violated :
    msRead (msAdd [invert (fresh exDump)] [fresh exDump]) .x = .error .valueError ∧
    msLen (msAdd [invert (fresh exDump)] [fresh exDump]) = .ok 3 := by
  constructor <;> rfl

/-- **`p += p` never terminates** (for non empty `p`): the loop appends to the list over which it
iterates, each round has a successor. -/
theorem iadd_self_violated (p : MS V) (hp : p ≠ []) :
    ∀ n : ℕ, ∃ st, (fun o : Option (ℕ × MS V) => o.bind iaddSelfStep)^[n] (some (0, p)) = some st ∧
      st.1 = n ∧ st.2.length = p.length + n := by
  intro n
  induction n with
  | zero => exact ⟨(0, p), rfl, rfl, rfl⟩
  | succ n ih =>
    obtain ⟨st, h1, h2, h3⟩ := ih
    rw [Function.iterate_succ_apply', h1]
    have hpos : 0 < p.length := List.length_pos_iff.2 hp
    have hlt : st.1 < st.2.length := by omega
    refine ⟨(st.1 + 1, st.2 ++ [st.2[st.1]]), ?_, ?_, ?_⟩
    · simp [iaddSelfStep, List.getElem?_eq_getElem hlt]
    · simp [h2]
    · simp [h3]; omega

example : Good [fresh exDump, fresh exDump] ∧ NoZero [fresh exDump, fresh exDump] ∧
    ∀ s ∈ [fresh exDump, fresh exDump], ∃ e, fetch s.dump .weight = .ok e := by
  refine ⟨?_, ?_, ?_⟩ <;> intro s hs <;> simp at hs <;> subst hs
  · exact ⟨3, inv_fresh _ _ exDump_wf⟩
  · simp [fresh]
  · exact ⟨_, rfl⟩

/-! ## C12: filtering a collection -/

/-- The selected particles of a collection, as pairs (species number, particle number). -/
def particlesOf : List (Mask × ℕ) → ℕ → List (ℕ × ℕ)
  | [], _ => []
  | (m, N) :: rest, j => (selOf N m).map (fun i => (j, i)) ++ particlesOf rest (j + 1)

/-- Filtering a collection with a condition of the length of the collection keeps the particle
number `i` iff the condition `i` is true. `Ns` are the particle numbers of the dumps. -/
theorem compress_collection (ms : MS V) (Ns : List ℕ) (h : List.Forall₂ Inv ms Ns)
    (c : List Bool) (j : ℕ) (pre : List Bool)
    (hc : c.length = (particlesOf (ms.map SS.mask |>.zip Ns) j).length) :
    ∃ ms', msCompressBool (pre ++ c) pre.length ms = .ok ms' ∧ List.Forall₂ Inv ms' Ns ∧
      ms'.map SS.dump = ms.map SS.dump ∧
      particlesOf (ms'.map SS.mask |>.zip Ns) j
        = pick c (particlesOf (ms.map SS.mask |>.zip Ns) j) := by
  have pick_append : ∀ {α : Type} (b1 b2 : List Bool) (l1 l2 : List α), b1.length = l1.length →
      pick (b1 ++ b2) (l1 ++ l2) = pick b1 l1 ++ pick b2 l2 := by
    intro α b1
    induction b1 with
    | nil =>
      intro b2 l1 l2 h
      have : l1 = [] := List.length_eq_zero_iff.1 h.symm
      subst this
      simp [pick]
    | cons b b1 ih =>
      intro b2 l1 l2 h
      cases l1 with
      | nil => simp at h
      | cons a l1 =>
        simp at h
        cases b <;> simp [pick, ih b2 l1 l2 h]
  induction h generalizing c j pre with
  | nil =>
    refine ⟨[], rfl, List.Forall₂.nil, rfl, ?_⟩
    simp [particlesOf, pick]
  | @cons s N ms Ns hs hrest ih =>
    obtain ⟨h1, h2, h3, h4⟩ := len_spec hs
    simp only [List.map_cons, List.zip_cons_cons, particlesOf, List.length_append,
      List.length_map] at hc
    set n := (selOf N s.mask).length with hn
    obtain ⟨g1, g2, g3, g4⟩ := compressBool_spec h2 (c.take n)
    have hlen : (c.take n).length = n := by rw [List.length_take]; omega
    rw [if_neg (by rw [h4, hlen]; simp [hn])] at g4
    obtain ⟨t, ht, ht1, ht2, ht3, ht4⟩ := g4
    obtain ⟨ms', r1, r2, r3, r4⟩ := ih (c.drop n) (j + 1) (pre ++ c.take n) (by
      rw [List.length_drop]; omega)
    refine ⟨t :: ms', ?_, List.Forall₂.cons ht1 r2, ?_, ?_⟩
    · unfold msCompressBool
      simp only [h1, bind, Except.bind]
      have e1 : ((pre ++ c).drop pre.length).take n = c.take n := by simp
      have e2 : pre ++ c.take n ++ c.drop n = pre ++ c := by
        rw [List.append_assoc, List.take_append_drop]
      have e3 : (pre ++ c.take n).length = pre.length + n := by simp [hlen]
      rw [e2, e3] at r1
      rw [e1, ht]
      simp only [r1]
      rfl
    · simp [r3, ht2, h3]
    · simp only [List.map_cons, List.zip_cons_cons, particlesOf]
      have e : c = c.take n ++ c.drop n := (List.take_append_drop n c).symm
      conv_rhs => rw [e]
      rw [pick_append _ _ _ _ (by rw [hlen, List.length_map]), ht4, h4, r4, pick_map]

/-- A condition shorter than the collection is refused with ValueError. Missing for the full
property: conditions which are too long, see `compress_overlong_violated`. -/
theorem compress_short_partial (ms : MS V) (Ns : List ℕ) (h : List.Forall₂ Inv ms Ns)
    (c : List Bool) (i j : ℕ)
    (hc : c.length - i < (particlesOf (ms.map SS.mask |>.zip Ns) j).length) :
    msCompressBool c i ms = .error .valueError := by
  induction h generalizing i j with
  | nil => simp [particlesOf] at hc
  | @cons s N ms Ns hs hrest ih =>
    obtain ⟨h1, h2, h3, h4⟩ := len_spec hs
    simp only [List.map_cons, List.zip_cons_cons, particlesOf, List.length_append,
      List.length_map] at hc
    set n := (selOf N s.mask).length with hn
    unfold msCompressBool
    simp only [h1, bind, Except.bind]
    obtain ⟨g1, g2, g3, g4⟩ := compressBool_spec h2 ((c.drop i).take n)
    by_cases hl : n ≤ c.length - i
    · have hlen : ((c.drop i).take n).length = n := by
        rw [List.length_take, List.length_drop]; omega
      rw [if_neg (by rw [h4, hlen]; simp [hn])] at g4
      obtain ⟨t, ht, _⟩ := g4
      rw [ht]
      simp only
      rw [ih (i + n) (j + 1) (by omega)]
    · have hlen : ((c.drop i).take n).length ≠ n := by
        rw [List.length_take, List.length_drop]; omega
      rw [if_pos (by rw [h4]; exact hlen)] at g4
      rw [g4]

/-- **The code violates C12**: a condition which is too long is accepted and the surplus ignored
(documented: ValueError). -/
theorem compress_overlong_violated :
    ∃ ms', msCompressBool [true, false, true, true, true] 0 [fresh exDump] = .ok ms' ∧
      msLen ms' = .ok 2 := ⟨_, rfl, rfl⟩

example : List.Forall₂ Inv [fresh exDump, fresh exDump] [3, 3] ∧
    [true, false, true, true, false, false].length
      = (particlesOf (([fresh exDump, fresh exDump].map SS.mask).zip [3, 3]) 0).length := by
  exact ⟨.cons (inv_fresh _ _ exDump_wf) (.cons (inv_fresh _ _ exDump_wf) .nil), rfl⟩

end Postpic.Props
