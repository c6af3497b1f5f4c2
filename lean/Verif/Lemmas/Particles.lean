import Mathlib.Data.List.Sort
import Mathlib.Tactic.Linarith
import Verif.Spec.Selection

/-! # Helper lemmas about filtered species -/

set_option autoImplicit false

namespace Postpic.Particles

open Postpic Postpic.Spec

variable {V : Type}

/-! ### boolean indexing -/

theorem pick_eq_filter {α : Type} : ∀ (b : List Bool) (l : List α),
    pick b l = ((l.zip b).filter fun ic => ic.2).map Prod.fst
  | [], l => by cases l <;> simp [pick]
  | true :: b, [] => by simp [pick]
  | false :: b, [] => by simp [pick]
  | true :: b, a :: l => by simp [pick, pick_eq_filter b l]
  | false :: b, a :: l => by simp [pick, pick_eq_filter b l]

theorem pick_map {α β : Type} (f : α → β) : ∀ (b : List Bool) (l : List α),
    pick b (l.map f) = (pick b l).map f
  | [], l => by cases l <;> simp [pick]
  | true :: b, [] => by simp [pick]
  | false :: b, [] => by simp [pick]
  | true :: b, a :: l => by simp [pick, pick_map f b l]
  | false :: b, a :: l => by simp [pick, pick_map f b l]

theorem length_pick {α : Type} : ∀ (b : List Bool) (l : List α), b.length = l.length →
    (pick b l).length = b.count true
  | [], [], _ => by simp [pick]
  | true :: b, a :: l, h => by
    simp at h; simp [pick, length_pick b l h]
  | false :: b, a :: l, h => by
    simp at h; simp [pick, length_pick b l h]

theorem pick_assign {α : Type} : ∀ (b c : List Bool) (l : List α), b.length = l.length →
    c.length = b.count true → pick (assign b c) l = pick c (pick b l)
  | [], c, l, h, hc => by
    cases c with
    | nil => simp [assign, pick]
    | cons a c => simp at hc
  | true :: b, c, [], h, hc => by simp at h
  | true :: b, [], a :: l, h, hc => by simp at hc
  | true :: b, true :: c, a :: l, h, hc => by
    simp at h hc; simp [assign, pick, pick_assign b c l h hc]
  | true :: b, false :: c, a :: l, h, hc => by
    simp at h hc; simp [assign, pick, pick_assign b c l h hc]
  | false :: b, c, [], h, hc => by simp at h
  | false :: b, c, a :: l, h, hc => by
    simp at h hc; simp [assign, pick, pick_assign b c l h hc]

theorem length_assign : ∀ (b c : List Bool), (assign b c).length = b.length
  | [], c => by cases c <;> simp [assign]
  | true :: b, [] => by simp [assign, length_assign b]
  | true :: b, d :: c => by simp [assign, length_assign b]
  | false :: b, c => by simp [assign, length_assign b]

theorem pick_map_self {α : Type} (p : α → Bool) (l : List α) : pick (l.map p) l = l.filter p := by
  induction l with
  | nil => simp [pick]
  | cons a l ih => cases h : p a <;> simp [pick, h, ih]

theorem pick_subset {α : Type} : ∀ (b : List Bool) (l : List α) (a : α), a ∈ pick b l → a ∈ l := by
  intro b l a h
  rw [pick_eq_filter] at h
  simp only [List.mem_map, List.mem_filter] at h
  obtain ⟨x, ⟨hx, _⟩, rfl⟩ := h
  exact (List.of_mem_zip hx).1

/-- The complement. -/
theorem pick_not {α : Type} [DecidableEq α] : ∀ (b : List Bool) (l : List α), l.Nodup →
    b.length = l.length → pick (b.map (!·)) l = l.filter fun i => decide (i ∉ pick b l)
  | [], [], _, _ => by simp [pick]
  | true :: b, a :: l, hn, h => by
    simp at h
    obtain ⟨ha, hn⟩ := List.nodup_cons.1 hn
    have e1 : pick (true :: b) (a :: l) = a :: pick b l := rfl
    have e2 : pick (List.map (!·) (true :: b)) (a :: l) = pick (b.map (!·)) l := rfl
    rw [e1, e2, List.filter_cons_of_neg (by simp), pick_not b l hn h]
    apply List.filter_congr
    intro x hx
    have : x ≠ a := fun h => ha (h ▸ hx)
    simp [this]
  | false :: b, a :: l, hn, h => by
    simp at h
    obtain ⟨ha, hn⟩ := List.nodup_cons.1 hn
    have e1 : pick (false :: b) (a :: l) = pick b l := rfl
    have e2 : pick (List.map (!·) (false :: b)) (a :: l) = a :: pick (b.map (!·)) l := rfl
    have hd : decide (a ∉ pick b l) = true := decide_eq_true fun hm => ha (pick_subset b _ _ hm)
    rw [e1, e2, List.filter_cons_of_pos (p := fun i => decide (i ∉ pick b l)) hd,
      pick_not b l hn h]

theorem pick_range_get {α : Type} (b : List Bool) (l : List α) (N : ℕ) (h : l.length = N) :
    (pick b (List.range N)).map (fun i => l[i]?) = (pick b l).map some := by
  rw [← pick_map, ← pick_map]
  congr 1
  apply List.ext_getElem?
  intro i
  simp only [List.getElem?_map]
  by_cases hi : i < N
  · rw [List.getElem?_range hi, List.getElem?_eq_getElem (by omega)]
    simp [List.getElem?_eq_getElem (show i < l.length by omega)]
  · rw [List.getElem?_eq_none (by simpa using hi), List.getElem?_eq_none (by omega)]
    rfl

theorem range_get {α : Type} (l : List α) (N : ℕ) (h : l.length = N) :
    (List.range N).map (fun i => l[i]?) = l.map some := by
  have := pick_range_get (List.replicate N true) l N h
  have e : ∀ {β : Type} (m : List β), pick (List.replicate m.length true) m = m := by
    intro β m
    induction m with
    | nil => simp [pick]
    | cons a m ih => simp [List.replicate_succ, pick, ih]
  have e1 := e (List.range N)
  have e2 := e l
  rw [List.length_range] at e1
  rw [h] at e2
  rw [e1, e2] at this
  exact this

/-! ### the invariant -/

/-- The particles selected by a mask. -/
def selOf (N : ℕ) : Mask → List ℕ
  | .none => List.range N
  | .zero => []
  | .bools b => pick b (List.range N)

/-- What reading property `k` should return. -/
def view (d : Dump V) (m : Mask) (k : Key) : Res (Arr V) :=
  match fetch d k with
  | .error e => .error e
  | .ok (.scalar v) => .ok (.scalar v)
  | .ok (.array l) => index m l

/-- The invariant: the mask has the right length and the cache contains what would be read. -/
structure Inv (s : SS V) (N : ℕ) : Prop where
  wf : WellFormed s.dump N
  mask : ∀ b, s.mask = .bools b → b.length = N
  cache : ∀ k a, s.cache k = some a → view s.dump s.mask k = .ok a ∧
    (s.mask = .none → ∃ v, fetch s.dump k = .ok (.scalar v))

theorem inv_fresh (d : Dump V) (N : ℕ) (h : WellFormed d N) : Inv (fresh d) N :=
  ⟨h, by simp [fresh], by simp [fresh]⟩

theorem inv_put {s : SS V} {N : ℕ} (h : Inv s N) (k : Key) (a : Arr V)
    (hv : view s.dump s.mask k = .ok a)
    (hs : s.mask = .none → ∃ v, fetch s.dump k = .ok (.scalar v)) : Inv (s.put k a) N := by
  refine ⟨h.wf, h.mask, ?_⟩
  intro k' a' hk
  simp only [SS.put] at hk ⊢
  split at hk
  · next hkk => subst hkk; cases hk; exact ⟨hv, hs⟩
  · exact h.cache k' a' hk

theorem readAtomic_spec {s : SS V} {N : ℕ} (h : Inv s N) (k : Key) :
    (readAtomic s k).1 = view s.dump s.mask k ∧ Inv (readAtomic s k).2 N ∧
    (readAtomic s k).2.dump = s.dump ∧ (readAtomic s k).2.mask = s.mask := by
  unfold readAtomic
  cases hc : s.cache k with
  | some a => exact ⟨(h.cache k a hc).1.symm, h, rfl, rfl⟩
  | none =>
    cases hf : fetch s.dump k with
    | error e => exact ⟨by simp [view, hf], h, rfl, rfl⟩
    | ok e =>
      cases e with
      | scalar v =>
        refine ⟨by simp [view, hf], inv_put h k _ (by simp [view, hf]) (fun _ => ⟨v, hf⟩), rfl, rfl⟩
      | array l =>
        have hv : view s.dump s.mask k = index s.mask l := by simp [view, hf]
        cases hm : s.mask with
        | none => exact ⟨by simp [view, hf, index], h, rfl, hm⟩
        | zero =>
          simp only
          refine ⟨by simp [view, hf, index], inv_put h k _ (by rw [hv, hm]; rfl) (by simp [hm]),
            rfl, hm⟩
        | bools b =>
          have hl : b.length = l.length := (h.mask b hm).trans (h.wf.1 k l hf).symm
          simp only [index, hl, if_true]
          refine ⟨by simp [view, hf, index, hl], inv_put h k _ (by rw [hv, hm]; simp [index, hl])
            (by simp [hm]), rfl, hm⟩

/-- The search for a data set gets to one, or to the end, without an exception other than KeyError. -/
def Reaches (d : Dump V) : List Key → Prop
  | [] => True
  | k :: ks => (∃ l, fetch d k = .ok (.array l)) ∨ ((∀ e, fetch d k = .error e → e = .keyError) ∧ Reaches d ks)

theorem fetch_missing {d : Dump V} {k : Key} (hk : k ∈ [Key.weight, .x, .y, .z, .px, .py, .pz]) {e : Err}
    (h : fetch d k = .error e) : e = .keyError := by
  unfold fetch at h
  simp only [List.mem_cons, List.not_mem_nil, or_false] at hk
  rcases hk with rfl | rfl | rfl | rfl | rfl | rfl | rfl <;> simp only at h <;>
    (cases hg : d.get _ <;> rw [hg] at h <;> simp only at h <;> cases h; rfl)

theorem reaches_all {d : Dump V} {N : ℕ} (h : WellFormed d N) : Reaches d Key.all := by
  have key : ∀ pre post : List Key, (∀ k ∈ pre, k ∈ [Key.weight, .x, .y, .z, .px, .py, .pz]) →
      (∃ k ∈ pre, ∃ l, fetch d k = .ok (.array l)) → Reaches d (pre ++ post) := by
    intro pre post
    induction pre with
    | nil =>
      intro _ h
      obtain ⟨k, hk, _⟩ := h
      simp at hk
    | cons k pre ih =>
      intro hm ha
      by_cases hk : ∃ l, fetch d k = .ok (.array l)
      · exact Or.inl hk
      · refine Or.inr ⟨fun e he => fetch_missing (hm k (by simp)) he, ih (fun q hq => hm q (by simp [hq])) ?_⟩
        obtain ⟨q, hq, hl⟩ := ha
        rcases List.mem_cons.1 hq with rfl | hq
        · exact absurd hl hk
        · exact ⟨q, hq, hl⟩
  rcases h.2.2 with ⟨k, hk, hl⟩ | h
  · exact key [.weight, .x, .y, .z, .px, .py, .pz] [.mass, .charge, .id, .time] (fun _ h => h) ⟨k, hk, hl⟩
  · generalize Key.all = ks
    induction ks with
    | nil => trivial
    | cons k ks ih => exact Or.inr ⟨fun e he => h k e he, ih⟩

open Classical in
theorem lenLoop_spec {s : SS V} {N : ℕ} (h : Inv s N) (hm : s.mask = .none) (ks : List Key) (hr : Reaches s.dump ks) :
    (lenLoop s ks).1 = .ok (if ∃ k ∈ ks, ∃ l, fetch s.dump k = .ok (.array l) then N else 0) ∧
    Inv (lenLoop s ks).2 N ∧ (lenLoop s ks).2.dump = s.dump ∧ (lenLoop s ks).2.mask = s.mask := by
  induction ks generalizing s with
  | nil => simpa [lenLoop] using h
  | cons k ks ih =>
    obtain ⟨h1, h2, h3, h4⟩ := readAtomic_spec h k
    unfold lenLoop
    generalize readAtomic s k = r at *
    obtain ⟨r1, s'⟩ := r
    simp only at h1 h2 h3 h4
    have hm' : s'.mask = .none := h4.trans hm
    have hv : view s.dump s.mask k = r1 := h1.symm
    unfold view at hv
    rw [hm] at hv
    cases hf : fetch s.dump k with
    | error e =>
      rw [hf] at hv
      simp only at hv
      subst hv
      rcases hr with ⟨l, hl⟩ | ⟨he, hr⟩
      · rw [hf] at hl
        cases hl
      obtain rfl := he e hf
      obtain ⟨i1, i2, i3, i4⟩ := ih h2 hm' (by rw [h3]; exact hr)
      simp only
      refine ⟨?_, i2, i3.trans h3, i4.trans h4⟩
      rw [i1, h3]
      simp [hf]
    | ok e =>
      rw [hf] at hv
      cases e with
      | scalar v =>
        rcases hr with ⟨l, hl⟩ | ⟨_, hr⟩
        · rw [hf] at hl
          cases hl
        obtain ⟨i1, i2, i3, i4⟩ := ih h2 hm' (by rw [h3]; exact hr)
        simp only at hv
        subst hv
        simp only
        refine ⟨?_, i2, i3.trans h3, i4.trans h4⟩
        rw [i1, h3]
        simp [hf]
      | array l =>
        simp only [index] at hv
        subst hv
        simp only
        refine ⟨?_, h2, h3, h4⟩
        rw [if_pos ⟨k, by simp, l, hf⟩, h.wf.1 k l hf]

theorem mem_all (k : Key) : k ∈ Key.all := by cases k <;> decide

theorem selOf_length {N : ℕ} (b : List Bool) (h : b.length = N) :
    (pick b (List.range N)).length = b.count true := length_pick b _ (by simp [h])

theorem len_spec {s : SS V} {N : ℕ} (h : Inv s N) :
    (len s).1 = .ok (selOf N s.mask).length ∧ Inv (len s).2 N ∧ (len s).2.dump = s.dump ∧
    (len s).2.mask = s.mask := by
  unfold len
  cases hm : s.mask with
  | none =>
    obtain ⟨h1, h2, h3, h4⟩ := lenLoop_spec h hm Key.all (reaches_all h.wf)
    refine ⟨?_, h2, h3, h4.trans hm⟩
    simp only
    rw [h1]
    congr 1
    simp only [selOf, List.length_range]
    split
    · rfl
    · next hn =>
      rcases h.wf.2.1 with ⟨k, l, hk⟩ | h0
      · exact absurd ⟨k, mem_all k, l, hk⟩ hn
      · exact h0.symm
  | zero => exact ⟨rfl, h, rfl, hm⟩
  | bools b =>
    refine ⟨?_, h, rfl, hm⟩
    simp only [selOf]
    rw [selOf_length b (h.mask b hm)]

theorem filterCache_spec (c : List Bool) (ks : List Key) (hks : ks.Nodup)
    (cache : Key → Option (Arr V))
    (hok : ∀ k ∈ ks, ∀ a, cache k = some a → ∃ a', filterCached c a = .ok a') :
    ∃ cache', filterCache c cache ks = .ok cache' ∧
      (∀ k, k ∉ ks → cache' k = cache k) ∧
      (∀ k ∈ ks, (cache k = none → cache' k = none) ∧
        ∀ a, cache k = some a → ∃ a', filterCached c a = .ok a' ∧ cache' k = some a') := by
  induction ks generalizing cache with
  | nil => exact ⟨cache, rfl, fun _ _ => rfl, by simp⟩
  | cons k ks ih =>
    obtain ⟨hk, hks⟩ := List.nodup_cons.1 hks
    unfold filterCache
    cases hc : cache k with
    | none =>
      obtain ⟨c', h1, h2, h3⟩ := ih hks cache (fun k' hk' => hok k' (by simp [hk']))
      refine ⟨c', h1, fun k' hk' => h2 k' (by simp at hk'; exact hk'.2), ?_⟩
      intro k' hk'
      rcases List.mem_cons.1 hk' with rfl | hk'
      · exact ⟨fun _ => (h2 _ hk).trans hc, fun a ha => by rw [hc] at ha; cases ha⟩
      · exact h3 k' hk'
    | some a =>
      obtain ⟨a', ha'⟩ := hok k (by simp) a hc
      simp only [ha', bind, Except.bind]
      obtain ⟨c', h1, h2, h3⟩ := ih hks (fun k' => if k' = k then some a' else cache k') (by
        intro k' hk' b hb
        have hne : k' ≠ k := fun h => hk (h ▸ hk')
        simp only [hne, if_false] at hb
        exact hok k' (by simp [hk']) b hb)
      refine ⟨c', h1, ?_, ?_⟩
      · intro k' hk'
        simp at hk'
        rw [h2 k' hk'.2, if_neg hk'.1]
      · intro k' hk'
        rcases List.mem_cons.1 hk' with rfl | hk'
        · refine ⟨fun h => (by rw [hc] at h; cases h), ?_⟩
          intro b hb
          rw [hc] at hb; cases hb
          exact ⟨a', ha', by rw [h2 _ hk, if_pos rfl]⟩
        · have hne : k' ≠ k := fun h => hk (h ▸ hk')
          have := h3 k' hk'
          simpa only [hne, if_false] using this

theorem all_nodup : Key.all.Nodup := by decide

theorem selOf_newMask {N : ℕ} {m : Mask} (hm : ∀ b, m = .bools b → b.length = N) (c : List Bool)
    (hc : c.length = (selOf N m).length) : selOf N (newMask m c) = pick c (selOf N m) := by
  cases m with
  | none => rfl
  | zero =>
    simp [selOf] at hc; subst hc; simp [selOf, newMask, pick]
  | bools b =>
    have hb := hm b rfl
    simp only [selOf] at hc ⊢
    rw [selOf_length b hb] at hc
    simp only [newMask]
    exact pick_assign b c _ (by simp [hb]) hc

/-- The data after `compress` are the selected ones of the data before. -/
theorem index_newMask {N : ℕ} {m : Mask} (hm : ∀ b, m = .bools b → b.length = N) (c : List Bool)
    (hc : c.length = (selOf N m).length) (l : List V) (hl : l.length = N) (a : Arr V)
    (ha : index m l = .ok a) :
    ∃ a', filterCached c a = .ok a' ∧ index (newMask m c) l = .ok a' := by
  cases m with
  | none =>
    simp only [index, Except.ok.injEq] at ha
    subst ha
    simp only [selOf, List.length_range] at hc
    simp [filterCached, newMask, index, hl, hc]
  | zero =>
    simp only [index, Except.ok.injEq] at ha
    subst ha
    simp only [selOf, List.length_nil] at hc
    simp [filterCached, newMask, index, hc]
  | bools b =>
    have hb := hm b rfl
    simp only [index, hb, hl, if_true, Except.ok.injEq] at ha
    subst ha
    simp only [selOf] at hc
    rw [selOf_length b hb] at hc
    have hlp : (pick b l).length = b.count true := length_pick b l (by omega)
    simp [filterCached, newMask, index, hc, hlp, length_assign, hb, hl,
      pick_assign b c l (by omega) hc]

theorem newMask_length {N : ℕ} {m : Mask} (hm : ∀ b, m = .bools b → b.length = N) (c : List Bool)
    (hc : c.length = (selOf N m).length) : ∀ b, newMask m c = .bools b → b.length = N := by
  intro b hb
  cases m with
  | none => simp only [newMask, Mask.bools.injEq] at hb; subst hb; simpa [selOf] using hc
  | zero => simp [newMask] at hb
  | bools b' =>
    simp only [newMask, Mask.bools.injEq] at hb
    subst hb
    rw [length_assign]; exact hm b' rfl

theorem compressBool_spec {s : SS V} {N : ℕ} (h : Inv s N) (c : List Bool) :
    Inv (compressBool s c).2 N ∧ (compressBool s c).2.dump = s.dump ∧
    (compressBool s c).2.mask = s.mask ∧
    (if c.length ≠ (selOf N s.mask).length then (compressBool s c).1 = .error .valueError
     else ∃ s', (compressBool s c).1 = .ok s' ∧ Inv s' N ∧ s'.dump = s.dump ∧
       s'.mask = newMask s.mask c ∧ selOf N s'.mask = pick c (selOf N s.mask)) := by
  obtain ⟨h1, h2, h3, h4⟩ := len_spec h
  unfold compressBool
  generalize len s = r at *
  obtain ⟨r1, s1⟩ := r
  simp only at h1 h2 h3 h4
  subst h1
  simp only
  by_cases hc : c.length = (selOf N s.mask).length
  · rw [if_neg (by simp [hc]), if_neg (by simp [hc])]
    simp only
    have hm := h.mask
    have hok : ∀ k ∈ Key.all, ∀ a, s1.cache k = some a → ∃ a', filterCached c a = .ok a' := by
      intro k _ a ha
      have hv := (h2.cache k a ha).1
      unfold view at hv
      cases hf : fetch s1.dump k with
      | error e => rw [hf] at hv; cases hv
      | ok e =>
        rw [hf] at hv
        cases e with
        | scalar v => cases hv; exact ⟨_, rfl⟩
        | array l =>
          simp only at hv
          rw [h4] at hv
          obtain ⟨a', ha', _⟩ := index_newMask hm c hc l (h2.wf.1 k l hf) a hv
          exact ⟨a', ha'⟩
    obtain ⟨cache', e1, -, e3⟩ := filterCache_spec c Key.all all_nodup s1.cache hok
    rw [e1]
    refine ⟨h2, h3, h4, _, rfl, ?_, h3, ?_, ?_⟩
    · refine ⟨h2.wf, ?_, ?_⟩
      · intro b hb
        exact newMask_length hm c hc b (by rw [← hb, ← h4])
      · intro k a ha
        simp only at ha ⊢
        obtain ⟨hn, hs⟩ := e3 k (mem_all k)
        cases hck : s1.cache k with
        | none => rw [hn hck] at ha; cases ha
        | some a0 =>
          obtain ⟨a', ha', hc'⟩ := hs a0 hck
          rw [hc'] at ha
          cases ha
          have hv := (h2.cache k a0 hck).1
          rw [h4]
          unfold view at hv ⊢
          cases hf : fetch s1.dump k with
          | error e => rw [hf] at hv; cases hv
          | ok e =>
            rw [hf] at hv
            cases e with
            | scalar v =>
              cases hv
              simp only [filterCached, Except.ok.injEq] at ha'
              subst ha'
              exact ⟨rfl, fun _ => ⟨v, rfl⟩⟩
            | array l =>
              simp only at hv ⊢
              rw [h4] at hv
              obtain ⟨a2, ha2, ha3⟩ := index_newMask hm c hc l (h2.wf.1 k l hf) a0 hv
              rw [ha'] at ha2
              cases ha2
              refine ⟨ha3, fun hcon => ?_⟩
              cases hsm : s.mask <;> rw [hsm] at hcon <;> simp [newMask] at hcon
    · simp only; rw [h4]
    · simp only
      rw [h4]
      exact selOf_newMask hm c hc
  · rw [if_pos (by simpa using fun h => hc h.symm), if_pos (by simpa using hc)]
    exact ⟨h2, h3, h4, rfl⟩

theorem inv_invert {s : SS V} {N : ℕ} (h : Inv s N) : Inv (invert s) N := by
  refine ⟨h.wf, ?_, by simp [invert]⟩
  intro b hb
  simp only [invert] at hb
  cases hm : s.mask with
  | none => rw [hm] at hb; cases hb
  | zero => rw [hm] at hb; cases hb
  | bools b' => rw [hm] at hb; cases hb; simp [h.mask b' hm]

theorem selOf_invert {s : SS V} {N : ℕ} (h : Inv s N) :
    selOf N (invert s).mask = (List.range N).filter fun i => decide (i ∉ selOf N s.mask) := by
  unfold invert
  cases hm : s.mask with
  | none => simp [selOf]
  | zero => simp [selOf]
  | bools b => exact pick_not b _ List.nodup_range (by simp [h.mask b hm])

/-! ### selection by ids -/

theorem sortIds_pairwise (l : List Int) : (sortIds l).Pairwise (· ≤ ·) := by
  have := List.pairwise_mergeSort (le := fun a b : Int => decide (a ≤ b))
    (fun a b c h1 h2 => by simp at *; omega) (fun a b => by simp; omega) l
  simpa [sortIds] using this

theorem mem_sortIds (l : List Int) (v : Int) : v ∈ sortIds l ↔ v ∈ l := by
  simp [sortIds, List.mem_mergeSort]

theorem length_sortIds (l : List Int) : (sortIds l).length = l.length := by
  simp [sortIds, List.length_mergeSort]

theorem idTest_sorted (a : List Int) (ha : a.Pairwise (· ≤ ·)) (hne : a ≠ []) (v : Int) :
    idTest a v = .ok (decide (v ∈ a)) := by
  have key : ∀ (a : List Int), a.Pairwise (· ≤ ·) →
      (a[searchsorted a v]? = some v ↔ v ∈ a) ∧
      (searchsorted a v = a.length → ∀ w ∈ a, w < v) := by
    intro a ha
    induction a with
    | nil => simp [searchsorted]
    | cons w a ih =>
      obtain ⟨hw, ha⟩ := List.pairwise_cons.1 ha
      obtain ⟨ih1, ih2⟩ := ih ha
      unfold searchsorted at *
      by_cases hlt : w < v
      · rw [List.takeWhile_cons_of_pos (by simpa using hlt)]
        simp only [List.length_cons, List.getElem?_cons_succ, List.mem_cons]
        refine ⟨?_, ?_⟩
        · rw [ih1]
          constructor
          · exact Or.inr
          · rintro (rfl | h)
            · omega
            · exact h
        · intro h x hx
          rcases hx with rfl | hx
          · exact hlt
          · exact ih2 (by omega) x hx
      · rw [List.takeWhile_cons_of_neg (by simpa using hlt)]
        simp only [List.length_nil, List.getElem?_cons_zero, Option.some.injEq, List.mem_cons]
        refine ⟨?_, ?_⟩
        · constructor
          · intro h; exact Or.inl h.symm
          · rintro (rfl | h)
            · rfl
            · have := hw v h; omega
        · intro h; simp at h
  obtain ⟨k1, k2⟩ := key a ha
  unfold idTest
  simp only
  by_cases hl : searchsorted a v = a.length
  · rw [if_pos hl]
    cases a with
    | nil => exact absurd rfl hne
    | cons w a =>
      simp only [List.getElem?_cons_zero]
      have hlt := k2 hl
      have hnot : v ∉ w :: a := fun h => by have := hlt v h; omega
      have : w ≠ v := fun h => hnot (by simp [h])
      simp [this, hnot]
  · rw [if_neg hl]
    have hlen : searchsorted a v < a.length := by
      have : searchsorted a v ≤ a.length := (List.takeWhile_sublist _).length_le
      omega
    rw [List.getElem?_eq_getElem hlen]
    simp only
    congr 1
    rw [List.getElem?_eq_getElem hlen] at k1
    simp only [Option.some.injEq] at k1
    exact decide_eq_decide.2 k1

theorem idTest_spec (ids : List Int) (hne : ids ≠ []) (v : Int) :
    idTest (sortIds ids) v = .ok (decide (v ∈ ids)) := by
  rw [idTest_sorted _ (sortIds_pairwise ids) (by
    intro h
    have := length_sortIds ids
    rw [h] at this
    exact hne (List.length_eq_zero_iff.1 this.symm))]
  simp [mem_sortIds]

theorem mapM_ok {α β : Type} (f : α → Res β) (g : α → β) (l : List α)
    (h : ∀ a ∈ l, f a = .ok (g a)) : l.mapM f = .ok (l.map g) := by
  induction l with
  | nil => rfl
  | cons a l ih =>
    rw [List.mapM_cons, h a (by simp), ih (fun b hb => h b (by simp [hb]))]
    rfl

end Postpic.Particles
