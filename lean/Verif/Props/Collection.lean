import Verif.Spec.Collection
import Verif.Props.Particles

/-!
# Properties of the history of a collection
-/

set_option autoImplicit false

namespace Postpic.Props

open Postpic Postpic.Spec Postpic.Particles

variable {V : Type}

/-- The operations of the code along a history. -/
def runColl (toInt : V → Int) : History V → Res (Coll V)
  | .species name d _ => .ok (Coll.ofSpecies name d)
  | .add p q => do
    let a ← runColl toInt p
    let b ← runColl toInt q
    return a.add b
  | .afterRead h k => do
    let c ← runColl toInt h
    return c.afterRead k
  | .compress h condition name => do
    let c ← runColl toInt h
    c.compress condition name
  | .select h ids name => do
    let c ← runColl toInt h
    c.select toInt ids name
  | .filter h ks f shown name => do
    let c ← runColl toInt h
    c.filter ks f shown name
  | .invert h => do
    let c ← runColl toInt h
    return c.invert
  | .uncompress h => do
    let c ← runColl toInt h
    return c.uncompress

/-- A species of the code is in the state of the specification. -/
structure PartOk (p : Part V) (q : SpecPart V) : Prop where
  name : p.species = q.name
  dump : p.ss.dump = q.dump
  inv : Inv p.ss q.N
  sel : selOf q.N p.ss.mask = q.sel
  log : p.log = q.log
  nonzero : p.ss.mask ≠ .zero
  restricted : q.restricted = true ↔ p.ss.mask ≠ .none

/-- The same for collections. -/
def CollOk (c : Coll V) (s : SpecColl V) : Prop := List.Forall₂ PartOk c.parts s.parts ∧ c.log = s.log

theorem newMask_nonzero {m : Mask} (h : m ≠ .zero) (c : List Bool) : newMask m c ≠ .zero ∧ newMask m c ≠ .none := by
  cases m <;> simp_all [newMask]

theorem part_compress {p : Part V} {q : SpecPart V} (h : PartOk p q) (c : List Bool) (name : String) (hc : c.length = q.sel.length) :
    ∃ p', p.compress c name = .ok p' ∧ PartOk p' { q with
      sel := ((q.sel.zip c).filter fun ic => ic.2).map Prod.fst, restricted := true, log := q.log ++ [name] } := by
  obtain ⟨_, _, _, h4⟩ := compressBool_spec h.inv c
  rw [if_neg (by rw [h.sel, hc]; simp)] at h4
  obtain ⟨t, t1, t2, t3, t4, t5⟩ := h4
  refine ⟨⟨p.species, t, p.log ++ [name]⟩, by simp [Part.compress, t1, bind, Except.bind, pure, Except.pure], ?_⟩
  obtain ⟨n1, n2⟩ := newMask_nonzero h.nonzero c
  exact ⟨h.name, t3.trans h.dump, t2, by simp only; rw [t5, h.sel, pick_eq_filter], by simp [h.log], by simp only; rw [t4]; exact n1,
    by simp only; rw [t4]; simp [n2]⟩

theorem part_len {p : Part V} {q : SpecPart V} (h : PartOk p q) :
    (Particles.len p.ss).1 = .ok q.sel.length ∧ PartOk { p with ss := (Particles.len p.ss).2 } q := by
  obtain ⟨h1, h2, h3, h4⟩ := len_spec h.inv
  refine ⟨by rw [h1, h.sel], ⟨h.name, h3.trans h.dump, h2, ?_, h.log, ?_, ?_⟩⟩
  · simp only; rw [h4]; exact h.sel
  · simp only; rw [h4]; exact h.nonzero
  · simp only; rw [h4]; exact h.restricted

theorem compressParts_ok {ps : List (Part V)} {qs : List (SpecPart V)} (h : List.Forall₂ PartOk ps qs) (name : String)
    (c : List Bool) (i : ℕ) (hc : c.length = i + (qs.map fun q => q.sel.length).sum) :
    ∃ ps', compressParts c name i ps = .ok ps' ∧ List.Forall₂ PartOk ps' (keep name qs (c.drop i)) := by
  induction h generalizing i with
  | nil => exact ⟨[], rfl, .nil⟩
  | @cons p q ps qs hp _ ih =>
    simp only [List.map_cons, List.sum_cons] at hc
    obtain ⟨l1, l2⟩ := part_len hp
    obtain ⟨p', p1, p2⟩ := part_compress l2 ((c.drop i).take q.sel.length) name (by
      rw [List.length_take, List.length_drop]; omega)
    obtain ⟨ps', r1, r2⟩ := ih (i + q.sel.length) (by omega)
    refine ⟨p' :: ps', ?_, ?_⟩
    · simp only [compressParts, l1, bind, Except.bind, p1, r1]
      rfl
    · rw [keep, List.drop_drop]
      exact .cons p2 r2

theorem mapM_parts {ps : List (Part V)} {qs : List (SpecPart V)} {f : Part V → Res (Part V)} {g : SpecPart V → SpecPart V}
    {P : SpecPart V → Prop} (h : List.Forall₂ PartOk ps qs) (hP : ∀ q ∈ qs, P q)
    (hf : ∀ p q, PartOk p q → P q → ∃ p', f p = .ok p' ∧ PartOk p' (g q)) :
    ∃ ps', ps.mapM f = .ok ps' ∧ List.Forall₂ PartOk ps' (qs.map g) := by
  induction h with
  | nil => exact ⟨[], rfl, .nil⟩
  | @cons p q ps qs hp _ ih =>
    obtain ⟨p', p1, p2⟩ := hf p q hp (hP q (by simp))
    obtain ⟨ps', r1, r2⟩ := ih fun q hq => hP q (by simp [hq])
    refine ⟨p' :: ps', ?_, .cons p2 r2⟩
    rw [List.mapM_cons, p1, r1]
    rfl

theorem map_parts {ps : List (Part V)} {qs : List (SpecPart V)} {f : Part V → Part V} {g : SpecPart V → SpecPart V}
    {P : SpecPart V → Prop} (h : List.Forall₂ PartOk ps qs) (hP : ∀ q ∈ qs, P q)
    (hf : ∀ p q, PartOk p q → P q → PartOk (f p) (g q)) : List.Forall₂ PartOk (ps.map f) (qs.map g) := by
  induction h with
  | nil => exact .nil
  | @cons p q ps qs hp _ ih =>
    exact .cons (hf p q hp (hP q (by simp))) (ih fun q hq => hP q (by simp [hq]))

theorem compressInt_mask (toInt : V → Int) {s t : SS V} {N : ℕ} (h : Inv s N) (hz : s.mask ≠ .zero) {ids : List Int}
    (ht : (compressInt toInt s ids).1 = .ok t) : t.mask ≠ .zero ∧ t.mask ≠ .none := by
  obtain ⟨r1, r2, r3, r4⟩ := readAtomic_spec h .id
  unfold compressInt at ht
  generalize readAtomic s .id = r at *
  obtain ⟨r', s1⟩ := r
  simp only at r1 r2 r3 r4 ht
  rcases r' with e | (v | l | n)
  · cases ht
  · cases ht
  · simp only at ht
    cases hb : l.mapM fun v => idTest (sortIds ids) (toInt v) with
    | error e => rw [hb] at ht; cases ht
    | ok bools =>
      rw [hb] at ht
      simp only at ht
      obtain ⟨_, _, _, g4⟩ := compressBool_spec r2 bools
      split at g4
      · rw [g4] at ht; cases ht
      · obtain ⟨t', e1, _, _, e2, _⟩ := g4
        rw [e1] at ht
        obtain rfl := Except.ok.inj ht
        rw [e2, r4]
        exact newMask_nonzero hz bools
  · cases ht

theorem part_select (toInt : V → Int) {p : Part V} {q : SpecPart V} (h : PartOk p q) (ids : List Int) (hne : ids ≠ [])
    (name : String) (l : List V) (hid : fetch q.dump .id = .ok (.array l)) :
    ∃ p', p.select toInt ids name = .ok p' ∧ PartOk p' { q with
      sel := q.sel.filter fun i => ((dataAt q.dump .id i).map toInt).any (· ∈ ids), restricted := true, log := q.log ++ [name] } := by
  obtain ⟨t, t1, t2, t3, t4⟩ := select_by_ids_partial toInt p.ss q.N h.inv l (by rw [h.dump]; exact hid) h.nonzero ids hne
  obtain ⟨m1, m2⟩ := compressInt_mask toInt h.inv h.nonzero t1
  refine ⟨⟨p.species, t, p.log ++ [name]⟩, by simp [Part.select, t1, bind, Except.bind, pure, Except.pure], ?_⟩
  refine ⟨h.name, t3.trans h.dump, t2, ?_, by simp [h.log], m1, by simp [m2]⟩
  simp only
  rw [t4, h.sel, dataAt_array hid]
  congr 1
  funext i
  simp only [Option.any_map, Function.comp_def]

/-- The values of the variables of an expression for the selected particles. -/
theorem readAll_ok {d : Dump V} {N : ℕ} {sel : List ℕ} (ks : List Key) {s : SS V} (hd : s.dump = d) (h : Inv s N)
    (hz : s.mask ≠ .zero) (hs : selOf N s.mask = sel) (hk : ∀ k ∈ ks, ∃ e, fetch d k = .ok e) :
    ∃ as s', readAll s ks = (.ok as, s') ∧ s'.dump = s.dump ∧ Inv s' N ∧ s'.mask = s.mask ∧
      (∀ a ∈ as, ∀ n, a ≠ .empty2 n) ∧ (∀ n ∈ lengths as, n = sel.length) ∧
      ((∃ k ∈ ks, ∃ l, fetch d k = .ok (.array l)) → lengths as ≠ []) ∧
      ∀ i x, sel[i]? = some x → as.mapM (Arr.valueAt i) = ks.mapM fun k => dataAt d k x := by
  induction ks generalizing s with
  | nil => exact ⟨[], s, rfl, rfl, h, rfl, by simp, by simp [lengths], by simp, by simp⟩
  | cons k ks ih =>
    obtain ⟨r1, r2, r3, r4⟩ := readAtomic_spec h k
    obtain ⟨as, s', a1, a2, a3, a4, a5, a6, a7, a8⟩ := ih (r3.trans hd) r2 (by rw [r4]; exact hz) (by rw [r4]; exact hs)
      fun k hk' => hk k (by simp [hk'])
    obtain ⟨e, he⟩ := hk k (by simp)
    have hview : view s.dump s.mask k = view d s.mask k := by rw [hd]
    rw [hview] at r1
    cases e with
    | scalar v =>
      have hv : view d s.mask k = .ok (.scalar v) := by simp [view, he]
      rw [hv] at r1
      refine ⟨.scalar v :: as, s', ?_, a2.trans r3, a3, a4.trans r4, ?_, ?_, ?_, ?_⟩
      · unfold readAll
        generalize readAtomic s k = r at *
        obtain ⟨r', s1⟩ := r
        simp only at r1
        subst r1
        simp only [a1]
      · intro a ha n
        rcases List.mem_cons.1 ha with rfl | ha
        · simp
        · exact a5 a ha n
      · simpa [lengths] using a6
      · rintro ⟨k', hk', l, hl⟩
        rcases List.mem_cons.1 hk' with rfl | hk'
        · rw [he] at hl
          cases hl
        · simpa [lengths] using a7 ⟨k', hk', l, hl⟩
      · intro i x hx
        rw [List.mapM_cons, List.mapM_cons, a8 i x hx]
        simp [Arr.valueAt, dataAt, he]
    | array l =>
      have hl := h.wf.1 k l (by rw [hd]; exact he)
      rcases index_sel h.mask l hl with ⟨l0, hi, hl0⟩ | ⟨hi, _⟩
      · have hv : view d s.mask k = .ok (.array l0) := by simp [view, he, hi]
        rw [hv] at r1
        rw [hs] at hl0
        have hlen : l0.length = sel.length := by simpa using congrArg List.length hl0
        refine ⟨.array l0 :: as, s', ?_, a2.trans r3, a3, a4.trans r4, ?_, ?_, ?_, ?_⟩
        · unfold readAll
          generalize readAtomic s k = r at *
          obtain ⟨r', s1⟩ := r
          simp only at r1
          subst r1
          simp only [a1]
        · intro a ha n
          rcases List.mem_cons.1 ha with rfl | ha
          · simp
          · exact a5 a ha n
        · intro n hn
          rcases List.mem_cons.1 hn with rfl | hn
          · exact hlen
          · exact a6 n hn
        · intro _
          simp [lengths]
        · intro i x hx
          rw [List.mapM_cons, List.mapM_cons, a8 i x hx]
          have : l0[i]? = dataAt d k x := by
            have := congrArg (fun m => m[i]?) hl0
            simp only [List.getElem?_map, hx, Option.map_some] at this
            rw [dataAt_array he]
            cases h0 : l0[i]? with
            | none => rw [h0] at this; simp at this
            | some v => rw [h0] at this; simpa using this
          simp only [Arr.valueAt, this]
      · exfalso
        cases hm : s.mask with
        | none => rw [hm] at hi; cases hi
        | zero => exact hz hm
        | bools b =>
          rw [hm] at hi
          simp only [index] at hi
          split at hi <;> cases hi

theorem part_filter {p : Part V} {q : SpecPart V} (h : PartOk p q) (ks : List Key) (f : List V → Bool) (name : String)
    (hk : ∀ k ∈ ks, ∃ e, fetch q.dump k = .ok e) (ha : ∃ k ∈ ks, ∃ l, fetch q.dump k = .ok (.array l)) :
    ∃ p', p.filter ks f name = .ok p' ∧ PartOk p' { q with
      sel := q.sel.filter fun i => (ks.mapM fun k => dataAt q.dump k i).any f, restricted := true, log := q.log ++ [name] } := by
  obtain ⟨as, s', a1, a2, a3, a4, a5, a6, a7, a8⟩ := readAll_ok ks h.dump h.inv h.nonzero h.sel hk
  have hp : PartOk { p with ss := s' } q :=
    ⟨h.name, a2.trans h.dump, a3, by simp only; rw [a4]; exact h.sel, h.log, by simp only; rw [a4]; exact h.nonzero,
      by simp only; rw [a4]; exact h.restricted⟩
  set g : ℕ → Bool := fun i => (ks.mapM fun k => dataAt q.dump k i).any f with hg
  have hev : evaluate f as = .ok (.bools (q.sel.map g)) := by
    unfold evaluate
    rw [if_neg]
    · have hne := a7 ha
      cases hl : lengths as with
      | nil => exact absurd hl hne
      | cons n ns =>
        rw [hl] at a6
        have hn : n = q.sel.length := a6 n (by simp)
        simp only
        rw [if_pos (by
          simp only [List.all_eq_true, decide_eq_true_eq]
          intro m hm
          rw [a6 m (by simp [hm]), hn])]
        congr 2
        apply List.ext_getElem?
        intro i
        simp only [List.getElem?_map, hn]
        by_cases hi : i < q.sel.length
        · rw [List.getElem?_range hi, List.getElem?_eq_getElem hi]
          simp only [Option.map_some, hg]
          rw [a8 i _ (List.getElem?_eq_getElem hi)]
        · rw [List.getElem?_eq_none (by simpa using hi), List.getElem?_eq_none (by simpa using hi)]
          rfl
    · simp only [List.any_eq_true, not_exists, not_and]
      intro a haa
      cases a with
      | empty2 n => exact absurd rfl (a5 _ haa n)
      | _ => simp
  obtain ⟨p', p1, p2⟩ := part_compress hp (q.sel.map g) name (by simp)
  refine ⟨p', ?_, ?_⟩
  · simp only [Part.filter, a1, hev, bind, Except.bind]
    exact p1
  · rw [← pick_eq_filter, pick_map_self] at p2
    exact p2

theorem part_invert {p : Part V} {q : SpecPart V} (h : PartOk p q) (hr : q.restricted = true) :
    PartOk p.invert { q with sel := (List.range q.N).filter fun i => i ∉ q.sel, log := q.log ++ ["inverted"] } := by
  have hm := h.restricted.1 hr
  refine ⟨h.name, h.dump, inv_invert h.inv, ?_, by simp [Part.invert, h.log], ?_, ?_⟩
  · have := selOf_invert h.inv
    rw [h.sel] at this
    exact this
  · have h0 := h.nonzero
    simp only [Part.invert, Particles.invert]
    cases hmm : p.ss.mask <;> simp_all
  · have h0 := h.nonzero
    simp only [Part.invert, Particles.invert]
    cases hmm : p.ss.mask <;> simp_all

theorem part_uncompress {p : Part V} {q : SpecPart V} (h : PartOk p q) :
    PartOk p.uncompress { q with sel := List.range q.N, restricted := false, log := [] } :=
  ⟨h.name, h.dump, inv_fresh _ _ h.inv.wf, rfl, rfl, by simp [Part.uncompress, Particles.uncompress, fresh],
    by simp [Part.uncompress, Particles.uncompress, fresh]⟩

theorem part_afterRead {p : Part V} {q : SpecPart V} (h : PartOk p q) (k : Key) :
    PartOk { p with ss := (ssdata p.ss k).2 } q := by
  have key : ∀ s' : SS V, s'.dump = p.ss.dump → Inv s' q.N → s'.mask = p.ss.mask → PartOk { p with ss := s' } q := by
    intro s' h1 h2 h3
    exact ⟨h.name, h1.trans h.dump, h2, by simp only; rw [h3]; exact h.sel, h.log, by simp only; rw [h3]; exact h.nonzero,
      by simp only; rw [h3]; exact h.restricted⟩
  obtain ⟨r1, r2, r3, r4⟩ := readAtomic_spec h.inv k
  unfold ssdata
  generalize readAtomic p.ss k = r at *
  obtain ⟨r', s1⟩ := r
  simp only at r1 r2 r3 r4
  rcases r' with e | (v | l | n)
  · exact key s1 r3 r2 r4
  · obtain ⟨l1, l2, l3, l4⟩ := len_spec r2
    simp only
    generalize Particles.len s1 = u at *
    obtain ⟨u', s2⟩ := u
    simp only at l1 l2 l3 l4
    cases u' with
    | error e => exact key s2 (l3.trans r3) l2 (l4.trans r4)
    | ok n => exact key s2 (l3.trans r3) l2 (l4.trans r4)
  · exact key s1 r3 r2 r4
  · exact key s1 r3 r2 r4

theorem run_ok (toInt : V → Int) (h : History V) (hu : Usable toInt h) :
    ∃ c, runColl toInt h = .ok c ∧ CollOk c (specColl toInt h) := by
  induction h with
  | species name d N =>
    refine ⟨_, rfl, .cons ⟨rfl, rfl, inv_fresh _ _ hu, rfl, rfl, by simp [fresh], by simp [fresh]⟩ .nil, rfl⟩
  | add p q ihp ihq =>
    obtain ⟨a, a1, a2, a3⟩ := ihp hu.1
    obtain ⟨b, b1, b2, b3⟩ := ihq hu.2
    exact ⟨a.add b, by simp [runColl, a1, b1, bind, Except.bind, pure, Except.pure], List.rel_append a2 b2, a3⟩
  | afterRead h k ih =>
    obtain ⟨c, c1, c2, c3⟩ := ih hu
    refine ⟨c.afterRead k, by simp [runColl, c1, bind, Except.bind, pure, Except.pure], ?_, c3⟩
    have := map_parts (f := fun p => { p with ss := (ssdata p.ss k).2 }) (g := id) (P := fun _ => True) c2 (by simp)
      fun p q h _ => part_afterRead h k
    simpa [Coll.afterRead, specColl] using this
  | compress h c name ih =>
    obtain ⟨a, a1, a2, a3⟩ := ih hu.1
    obtain ⟨ps, p1, p2⟩ := compressParts_ok a2 name c 0 (by simpa [SpecColl.count] using hu.2)
    exact ⟨⟨ps, a.log ++ [name]⟩, by simp [runColl, a1, Coll.compress, p1, bind, Except.bind, pure, Except.pure], p2, by
      simp [specColl, a3]⟩
  | select h ids name ih =>
    obtain ⟨a, a1, a2, a3⟩ := ih hu.1
    obtain ⟨ps, p1, p2⟩ := mapM_parts a2 hu.2.2 (f := fun p => p.select toInt ids name) fun p q hpq hP =>
      part_select toInt hpq ids hu.2.1 name hP.choose hP.choose_spec
    exact ⟨⟨ps, a.log ++ [name]⟩, by simp [runColl, a1, Coll.select, p1, bind, Except.bind, pure, Except.pure], p2, by
      simp [specColl, a3]⟩
  | filter h ks f shown name ih =>
    obtain ⟨a, a1, a2, a3⟩ := ih hu.1
    obtain ⟨ps, p1, p2⟩ := mapM_parts a2 hu.2 (f := fun p => p.filter ks f (name.getD shown)) fun p q hpq hP =>
      part_filter hpq ks f (name.getD shown) hP.1 hP.2
    exact ⟨⟨ps, a.log ++ [shown]⟩, by simp [runColl, a1, Coll.filter, p1, bind, Except.bind, pure, Except.pure], p2, by
      simp [specColl, a3]⟩
  | invert h ih =>
    obtain ⟨a, a1, a2, a3⟩ := ih hu.1
    exact ⟨a.invert, by simp [runColl, a1, bind, Except.bind, pure, Except.pure], map_parts a2 hu.2 fun p q hpq hP => part_invert hpq hP,
      by simp [specColl, Coll.invert, a3]⟩
  | uncompress h ih =>
    obtain ⟨a, a1, a2, a3⟩ := ih hu
    exact ⟨a.uncompress, by simp [runColl, a1, bind, Except.bind, pure, Except.pure],
      map_parts (P := fun _ => True) a2 (by simp) fun p q hpq _ => part_uncompress hpq, rfl⟩

theorem initial_ok {ps : List (Part V)} {qs : List (SpecPart V)} (h : List.Forall₂ PartOk ps qs) :
    ps.mapM Part.initialNpart = .ok (qs.map fun q => q.N) := by
  induction h with
  | nil => rfl
  | @cons p q ps qs hp _ ih =>
    have : p.initialNpart = .ok q.N := by
      unfold Part.initialNpart
      cases hm : p.ss.mask with
      | none =>
        have := (len_spec hp.inv).1
        rw [hm] at this
        simpa [selOf] using this
      | zero => exact absurd hm hp.nonzero
      | bools b => simp [hp.inv.mask b hm]
    rw [List.mapM_cons, this, ih]
    rfl

theorem len_ok {ps : List (Part V)} {qs : List (SpecPart V)} (h : List.Forall₂ PartOk ps qs) :
    ((ps.map Part.ss).mapM fun s => (Particles.len s).1) = .ok (qs.map fun q => q.sel.length) := by
  induction h with
  | nil => rfl
  | @cons p q ps qs hp _ ih =>
    rw [List.map_cons, List.mapM_cons, (part_len hp).1, ih]
    rfl

theorem data_ok {ps : List (Part V)} {qs : List (SpecPart V)} (h : List.Forall₂ PartOk ps qs) (k : Key)
    (hk : ∀ q ∈ qs, ∃ e, fetch q.dump k = .ok e) :
    ∃ ls : List (List V), msData (ps.map Part.ss) k = .ok (ls.map fun l => Arr.array l) ∧
      ls.flatten.map some = (qs.map fun q => q.sel.map (dataAt q.dump k)).flatten := by
  induction h with
  | nil => exact ⟨[], rfl, rfl⟩
  | @cons p q ps qs hp _ ih =>
    obtain ⟨e, he⟩ := hk q (by simp)
    obtain ⟨l, l1, l2⟩ := ssdata_spec p.ss q.N hp.inv hp.nonzero k e (by rw [hp.dump]; exact he)
    obtain ⟨ls, r1, r2⟩ := ih fun q hq => hk q (by simp [hq])
    refine ⟨l :: ls, ?_, ?_⟩
    · unfold msData at r1 ⊢
      rw [List.map_cons, List.mapM_cons, l1, r1]
      rfl
    · simp only [List.flatten_cons, List.map_append, List.map_cons, r2, l2, speciesValues, hp.sel, hp.dump]

theorem map_eq_of_forall2 {α β γ : Type} {R : α → β → Prop} {f : α → γ} {g : β → γ} {l : List α} {m : List β}
    (h : List.Forall₂ R l m) (hfg : ∀ a b, R a b → f a = g b) : l.map f = m.map g := by
  induction h with
  | nil => rfl
  | cons h _ ih => simp [hfg _ _ h, ih]

/-! ## C73 -/

/-- C73: every collection, however it was made by adding, filtering, selecting, inverting and resetting, has the particles, numbers
and logs which a list of particles would have: its length is the number of selected particles, `initial_npart` the number of
particles in the dumps, `nspecies` the number of species; every property has the values of the selected particles in order, numbers are
repeated; the logs contain the names of the selections in order. Partial: see `Usable`; `invert_bare_violated`,
`filter_number_violated`, `select_empty_violated` and `compress_overlong_violated` show what happens otherwise. -/
theorem collection_history_partial (toInt : V → Int) (h : History V) (hu : Usable toInt h) :
    ∃ c, runColl toInt h = .ok c ∧ c.len = .ok (specColl toInt h).count ∧
      c.initialNpart = .ok ((specColl toInt h).parts.map fun p => p.N).sum ∧
      c.nspecies = (specColl toInt h).parts.length ∧
      (∀ k, (∀ p ∈ (specColl toInt h).parts, ∃ e, fetch p.dump k = .ok e) →
        ∃ l, c.read k = .ok (.array l) ∧ l.map some = (specColl toInt h).values k) ∧
      c.parts.map Part.species = (specColl toInt h).parts.map SpecPart.name ∧
      c.log = (specColl toInt h).log ∧ c.parts.map Part.log = (specColl toInt h).parts.map SpecPart.log := by
  obtain ⟨c, c1, c2, c3⟩ := run_ok toInt h hu
  refine ⟨c, c1, ?_, ?_, List.Forall₂.length_eq c2, ?_, ?_, c3, ?_⟩
  · unfold Coll.len msLen
    rw [len_ok c2]
    rfl
  · unfold Coll.initialNpart
    rw [initial_ok c2]
    rfl
  · intro k hk
    obtain ⟨ls, l1, l2⟩ := data_ok c2 k hk
    refine ⟨ls.flatten, ?_, l2⟩
    unfold Coll.read msRead
    cases hp : c.parts with
    | nil =>
      rw [hp] at l1
      have : ls = [] := by
        simp only [List.map_nil, msData, List.mapM_nil, pure, Except.pure, Except.ok.injEq] at l1
        simpa using l1.symm
      subst this
      rfl
    | cons p ps =>
      rw [← hp, if_neg (by rw [hp]; simp), l1]
      exact hstack_arrays ls
  · exact map_eq_of_forall2 c2 fun _ _ h => h.name
  · exact map_eq_of_forall2 c2 fun _ _ h => h.log

/-- C73: `uncompress` undoes all selections: what is left has no log and all particles of the dumps. -/
theorem uncompress_restores (toInt : V → Int) (h : History V) (hu : Usable toInt h) :
    ∃ c, runColl toInt (.uncompress h) = .ok c ∧ c.log = [] ∧ (∀ p ∈ c.parts, p.log = []) ∧
      c.len = c.initialNpart ∧
      ∀ k, (∀ p ∈ (specColl toInt h).parts, ∃ e, fetch p.dump k = .ok e) →
        ∃ l, c.read k = .ok (.array l) ∧
          l.map some = ((specColl toInt h).parts.map fun p => (List.range p.N).map (dataAt p.dump k)).flatten := by
  obtain ⟨c, c1, c2, c3, _, c4, _, c5, c6⟩ := collection_history_partial toInt (.uncompress h) hu
  refine ⟨c, c1, c5, ?_, ?_, ?_⟩
  · intro p hp
    have : p.log ∈ c.parts.map Part.log := List.mem_map_of_mem hp
    rw [c6] at this
    simp [specColl] at this
    exact this.2
  · rw [c2, c3]
    simp [specColl, SpecColl.count, Function.comp_def]
  · intro k hk
    obtain ⟨l, l1, l2⟩ := c4 k (by simpa [specColl] using hk)
    refine ⟨l, l1, ?_⟩
    rw [l2]
    simp [specColl, SpecColl.values, Function.comp_def]

/-- C73: the dictionary of `getcompresslog()` has the log of every species, if no two species have the same name and none is called
`all`. Partial: see `compresslog_names_violated`. -/
theorem getcompresslog_partial (c : Coll V) (hn : (c.parts.map Part.species).Nodup) (ha : "all" ∉ c.parts.map Part.species) :
    c.getcompresslog "all" = some c.log ∧ ∀ p ∈ c.parts, c.getcompresslog p.species = some p.log := by
  have key : ∀ (ps : List (Part V)) (dict : String → Option (List String)), (ps.map Part.species).Nodup →
      (∀ key, key ∉ ps.map Part.species → ps.foldl (fun dict p key => if key = p.species then some p.log else dict key) dict key =
        dict key) ∧
      ∀ p ∈ ps, ps.foldl (fun dict p key => if key = p.species then some p.log else dict key) dict p.species = some p.log := by
    intro ps
    induction ps with
    | nil => intro dict _; simp
    | cons p ps ih =>
      intro dict hn
      obtain ⟨h1, h2⟩ := List.nodup_cons.1 hn
      obtain ⟨i1, i2⟩ := ih (fun key => if key = p.species then some p.log else dict key) h2
      constructor
      · intro key hk
        simp only [List.map_cons, List.mem_cons, not_or] at hk
        rw [List.foldl_cons, i1 key hk.2, if_neg hk.1]
      · intro q hq
        rw [List.foldl_cons]
        rcases List.mem_cons.1 hq with rfl | hq
        · rw [i1 _ h1, if_pos rfl]
        · exact i2 q hq
  obtain ⟨h1, h2⟩ := key c.parts (fun key => if key = "all" then some c.log else none) hn
  exact ⟨by unfold Coll.getcompresslog; rw [h1 _ ha]; simp, h2⟩

/-! ### Examples and violations -/

/-- Two species; one is filtered before they are added, then both are filtered, inverted and reset. -/
def exHistory : History Int :=
  .filter (.invert (.compress (.add (.species "electron" exDump 3)
    (.filter (.afterRead (.species "proton" exDump 3) .x) [.x, .weight] (fun v => decide (15 < v.sum)) "x + w > 15" none))
    [true, false, true, true, true, false] "some")) [.x] (fun v => decide (v.sum < 25)) "x < 25" (some "left")

theorem exHistory_usable : Usable id exHistory := by
  refine ⟨⟨⟨⟨exDump_wf, exDump_wf, ?_⟩, rfl⟩, ?_⟩, ?_⟩
  · intro p hp
    simp only [specColl, List.mem_cons, List.not_mem_nil, or_false] at hp
    subst hp
    refine ⟨?_, .x, by simp, _, rfl⟩
    intro k hk
    simp only [List.mem_cons, List.not_mem_nil, or_false] at hk
    rcases hk with rfl | rfl <;> exact ⟨_, rfl⟩
  · intro p hp
    simp only [specColl, keep, List.map_cons, List.map_nil, List.cons_append, List.nil_append, List.mem_cons, List.not_mem_nil,
      or_false] at hp
    rcases hp with rfl | rfl <;> rfl
  · intro p hp
    simp only [specColl, keep, List.map_cons, List.map_nil, List.cons_append, List.nil_append, List.mem_cons, List.not_mem_nil,
      or_false] at hp
    rcases hp with rfl | rfl <;> refine ⟨?_, .x, by simp, _, rfl⟩ <;>
      (intro k hk; simp only [List.mem_cons, List.not_mem_nil, or_false] at hk; subst hk; exact ⟨_, rfl⟩)

example : (specColl id exHistory).parts.map (fun p => (p.name, p.sel, p.log)) =
    [("electron", [1], ["some", "inverted", "left"]), ("proton", [], ["x + w > 15", "some", "inverted", "left"])] := by
  decide

example := collection_history_partial id exHistory exHistory_usable
example := uncompress_restores id exHistory exHistory_usable

/-- C73 violated: after the inversion of a species which was never filtered, `initial_npart` (and with it the printed form) raises
TypeError, although the number of particles in the dump is known. -/
theorem invert_bare_violated : ∃ c, runColl id (.invert (.species "electron" exDump 3)) = .ok c ∧ c.len = .ok 0 ∧
    c.initialNpart = .error .typeError := ⟨_, rfl, rfl, rfl⟩

/-- C73 violated: a condition on a property which is the same number for all particles of the species (here the weight) raises TypeError,
although it holds for all of them. -/
theorem filter_number_violated :
    runColl id (.filter (.species "electron" exDump 3) [.weight] (fun v => decide (0 < v.sum)) "w > 0" none) = .error .typeError ∧
    (specColl id (.filter (.species "electron" exDump 3) [.weight] (fun v => decide (0 < v.sum)) "w > 0" none)).count = 3 := by
  constructor
  · rfl
  · decide

/-- C73 violated: `getcompresslog()` of a collection of two species with the same name (from two dumps) only has one of the logs, and
the names of the selections of the second collection as a whole are lost. -/
theorem compresslog_names_violated : ∃ c, runColl id (.add (.compress (.species "electron" exDump 3) [true, false, true] "a")
    (.species "electron" exDump 3)) = .ok c ∧ c.parts.map Part.log = [["a"], []] ∧ c.getcompresslog "electron" = some [] := by
  refine ⟨_, rfl, rfl, ?_⟩
  decide

end Postpic.Props
