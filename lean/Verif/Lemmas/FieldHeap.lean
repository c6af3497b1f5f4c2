import Verif.Lemmas.Field
import Verif.Spec.FieldHeap

/-!
# Lemmas on shared lists and arrays
-/

set_option autoImplicit false
set_option linter.unusedSectionVars false

namespace Postpic.Fields

open Postpic Postpic.Axes Postpic.Spec

variable {K V : Type} [_root_.Field K] [LinearOrder K]

/-- The addresses are in use. -/
def Obj.Below (o : Obj) (n : ℕ) : Prop := o.buf < n ∧ o.axes < n ∧ o.ats < n ∧ o.tao < n ∧ o.infos < n

/-- What two variables do not share. -/
def Obj.Apart (S D : Prop) (o p : Obj) : Prop :=
  o.axes ≠ p.axes ∧ o.infos ≠ p.infos ∧ (S → o.ats ≠ p.ats ∧ o.tao ≠ p.tao) ∧ (D → o.buf ≠ p.buf)

/-- The invariant. -/
structure Mem.Inv (S D : Prop) (s : Mem K V) : Prop where
  below : ∀ o ∈ s.objs, o.Below s.next
  apart : ∀ (i j : ℕ) (o p : Obj), i ≠ j → s.objs[i]? = some o → s.objs[j]? = some p → o.Apart S D p
  whole : D → ∀ o ∈ s.objs, o.loc = id

theorem Obj.Apart.symm {S D : Prop} {o p : Obj} (h : o.Apart S D p) : p.Apart S D o :=
  ⟨h.1.symm, h.2.1.symm, fun hs => ⟨(h.2.2.1 hs).1.symm, (h.2.2.1 hs).2.symm⟩, fun hd => (h.2.2.2 hd).symm⟩

theorem get_contents (s : Mem K V) (i : ℕ) :
    Vars.get s.contents i = (s.obj i).map fun o => (s.load o, s.infos o.infos) := by
  unfold Vars.get Mem.obj Mem.contents
  rw [List.getElem?_map]
  cases s.objs[i]? <;> rfl

theorem obj_ok {s : Mem K V} {i : ℕ} {o : Obj} (h : s.objs[i]? = some o) : s.obj i = .ok o := by
  unfold Mem.obj
  rw [h]

theorem obj_err {s : Mem K V} {i : ℕ} (h : s.objs[i]? = none) : s.obj i = .error .nameError := by
  unfold Mem.obj
  rw [h]

theorem load_push (s : Mem K V) (f : Field K V) (inf : List String) (n o : Obj) (h : o.Below s.next) :
    (s.push f inf n).load o = s.load o ∧ (s.push f inf n).infos o.infos = s.infos o.infos := by
  obtain ⟨h1, h2, h3, h4, h5⟩ := h
  unfold Mem.load Mem.push
  simp only [Function.update_of_ne (ne_of_lt h1), Function.update_of_ne (ne_of_lt h2),
    Function.update_of_ne (ne_of_lt h3), Function.update_of_ne (ne_of_lt h4), Function.update_of_ne (ne_of_lt h5)]
  exact ⟨trivial, trivial⟩

theorem contents_push {s : Mem K V} (h : ∀ o ∈ s.objs, o.Below s.next) (f : Field K V) (inf : List String) (n : Obj) :
    (s.push f inf n).contents =
      s.contents ++ [((s.push f inf n).load n, (s.push f inf n).infos n.infos)] := by
  unfold Mem.contents
  show List.map _ (s.objs ++ [n]) = _
  rw [List.map_append]
  congr 1
  apply List.map_congr_left
  intro o ho
  obtain ⟨h1, h2⟩ := load_push s f inf n o (h o ho)
  rw [h1, h2]

theorem inv_push {S D : Prop} {s : Mem K V} (h : s.Inv S D) (f : Field K V) (inf : List String) (n : Obj)
    (hb : n.Below (s.next + 1)) (ha : n.axes = s.next) (hi : n.infos = s.next)
    (hs : S → n.ats = s.next ∧ n.tao = s.next) (hd : D → n.buf = s.next ∧ n.loc = id) :
    (s.push f inf n).Inv S D := by
  have key : ∀ o ∈ s.objs, o.Apart S D n := by
    intro o ho
    obtain ⟨h1, h2, h3, h4, h5⟩ := h.below o ho
    exact ⟨by omega, by omega, fun hs' => ⟨by have := (hs hs').1; omega, by have := (hs hs').2; omega⟩,
      fun hd' => by have := (hd hd').1; omega⟩
  constructor
  · intro o ho
    rcases List.mem_append.1 ho with ho | ho
    · obtain ⟨h1, h2, h3, h4, h5⟩ := h.below o ho
      exact ⟨by show _ < s.next + 1; omega, by show _ < s.next + 1; omega, by show _ < s.next + 1; omega,
        by show _ < s.next + 1; omega, by show _ < s.next + 1; omega⟩
    · rw [List.mem_singleton.1 ho]
      exact hb
  · intro i j o p hij hi' hj'
    change (s.objs ++ [n])[i]? = some o at hi'
    change (s.objs ++ [n])[j]? = some p at hj'
    rcases lt_trichotomy i s.objs.length with h1 | h1 | h1
    · rw [List.getElem?_append_left h1] at hi'
      rcases lt_trichotomy j s.objs.length with h2 | h2 | h2
      · rw [List.getElem?_append_left h2] at hj'
        exact h.apart i j o p hij hi' hj'
      · rw [h2, List.getElem?_append_right le_rfl] at hj'
        simp at hj'
        subst hj'
        exact key o (List.mem_of_getElem? hi')
      · rw [List.getElem?_append_right h2.le] at hj'
        have := (List.getElem?_eq_some_iff.1 hj').1
        simp at this
        omega
    · rw [h1, List.getElem?_append_right le_rfl] at hi'
      simp at hi'
      subst hi'
      rcases lt_trichotomy j s.objs.length with h2 | h2 | h2
      · rw [List.getElem?_append_left h2] at hj'
        exact (key p (List.mem_of_getElem? hj')).symm
      · omega
      · rw [List.getElem?_append_right h2.le] at hj'
        have := (List.getElem?_eq_some_iff.1 hj').1
        simp at this
        omega
    · rw [List.getElem?_append_right h1.le] at hi'
      have := (List.getElem?_eq_some_iff.1 hi').1
      simp at this
      omega
  · intro hD o ho
    rcases List.mem_append.1 ho with ho | ho
    · exact h.whole hD o ho
    · rw [List.mem_singleton.1 ho]
      exact (hd hD).2

theorem contents_set {s s' : Mem K V} {i : ℕ} {v : Field K V × List String} (hl : s'.objs.length = s.objs.length)
    (hi : ∀ o, s'.objs[i]? = some o → (s'.load o, s'.infos o.infos) = v)
    (hj : ∀ j o, j ≠ i → s.objs[j]? = some o →
      s'.objs[j]? = some o ∧ s'.load o = s.load o ∧ s'.infos o.infos = s.infos o.infos) :
    s'.contents = s.contents.set i v := by
  apply List.ext_getElem?
  intro j
  unfold Mem.contents
  rw [List.getElem?_map, List.getElem?_set, List.getElem?_map, List.length_map]
  by_cases e : i = j
  · subst e
    rw [if_pos rfl]
    by_cases hlt : i < s.objs.length
    · rw [if_pos hlt]
      have : i < s'.objs.length := by omega
      rw [List.getElem?_eq_getElem this]
      exact congrArg some (hi _ (List.getElem?_eq_getElem this))
    · rw [if_neg hlt, List.getElem?_eq_none (by omega)]
      rfl
  · rw [if_neg e]
    cases hs : s.objs[j]? with
    | none =>
      rw [List.getElem?_eq_none (by rw [hl]; exact List.getElem?_eq_none_iff.1 hs)]
      rfl
    | some o =>
      obtain ⟨h1, h2, h3⟩ := hj j o (fun h => e h.symm) hs
      rw [h1]
      exact congrArg some (Prod.ext h2 h3)

theorem idxOk_iff : ∀ (shape idx : List ℕ), idxOk shape idx = true ↔ InBounds shape idx
  | [], [] => by simp [idxOk, InBounds]
  | [], i :: idx => by simp [idxOk, InBounds]
  | n :: shape, [] => by simp [idxOk, InBounds]
  | n :: shape, i :: idx => by
    have ih := idxOk_iff shape idx
    unfold idxOk InBounds at *
    simp only [List.length_cons, List.zip_cons_cons, List.all_cons, Bool.and_eq_true, beq_iff_eq, decide_eq_true_eq,
      Nat.add_right_cancel_iff] at *
    constructor
    · rintro ⟨h1, h2, h3⟩
      refine ⟨h1, ?_⟩
      intro d a b ha hb
      cases d with
      | zero => simp at ha hb; omega
      | succ d => exact (ih.1 ⟨h1, h3⟩).2 d a b (by simpa using ha) (by simpa using hb)
    · rintro ⟨h1, h2⟩
      refine ⟨h1, h2 0 i n rfl rfl, (ih.2 ⟨h1, ?_⟩).2⟩
      intro d a b ha hb
      exact h2 (d + 1) a b (by simpa using ha) (by simpa using hb)

theorem mkField_same {m : Arr V} {name unit : String} {axes : List (Axis K)} {ats : List (Option Bool)}
    {tao : List (Option K)} {r : Field K V} (h : mkField m name unit axes ats tao = .ok r) :
    r = ⟨name, unit, m, axes, ats, tao⟩ := by
  unfold mkField at h
  split at h
  · cases h
  · obtain ⟨_, -, h⟩ := bind_ok h
    cases h
    rfl

theorem getitem_matrix {spl : Splines K} {f r : Field K V} {key : List (Key K)} {p : List Pick}
    (h : f.getitem spl key = .ok r) (hp : f.getPicks spl key = .ok p) : r.matrix = f.matrix.pick p := by
  unfold Field.getitem at h
  unfold Field.getPicks at hp
  obtain ⟨keys, hk, hp⟩ := bind_ok hp
  obtain ⟨picks, hq, hp⟩ := bind_ok hp
  cases hp
  by_cases hd : (key.length : ℤ) ≠ f.dims
  · rw [if_pos hd] at h
    cases h
  · rw [if_neg hd] at h
    simp only [hk, hq, bind, Except.bind, pure, Except.pure] at h
    split at h
    · cases h
    · cases h
      rfl

theorem getitem_picks {spl : Splines K} {f r : Field K V} {key : List (Key K)}
    (h : f.getitem spl key = .ok r) : ∃ p, f.getPicks spl key = .ok p := by
  unfold Field.getitem at h
  unfold Field.getPicks
  by_cases hd : (key.length : ℤ) ≠ f.dims
  · rw [if_pos hd] at h
    cases h
  · rw [if_neg hd] at h
    cases hk : (f.axes.zip key).mapM fun p => normKey p.1 p.2 with
    | error e =>
      simp only [hk, bind, Except.bind] at h
      cases h
    | ok keys =>
      cases hq : (f.axes.zip keys).mapM fun p => pickAxis spl p.1 p.2 with
      | error e =>
        simp only [hk, hq, bind, Except.bind] at h
        cases h
      | ok picks =>
        exact ⟨_, by simp only [bind, Except.bind, hq]; rfl⟩

theorem load_fresh (s : Mem K V) (f : Field K V) (inf : List String) :
    (s.push f inf (s.fresh f)).load (s.fresh f) = f ∧ (s.push f inf (s.fresh f)).infos (s.fresh f).infos = inf := by
  unfold Mem.load Mem.push Mem.fresh
  simp

/-- Execution and value semantics agree for a step, and the invariant is kept. -/
def Agree (S D : Prop) (r : Res (Mem K V)) (v : Res (Vars K V)) : Prop :=
  (∃ s, r = .ok s ∧ v = .ok s.contents ∧ s.Inv S D) ∨ ∃ e, r = .error e ∧ v = .error e

theorem agree_obj {S D : Prop} {s : Mem K V} {i : ℕ} {k : Obj → Res (Mem K V)}
    {k' : Field K V × List String → Res (Vars K V)}
    (h : ∀ o, s.objs[i]? = some o → Agree S D (k o) (k' (s.load o, s.infos o.infos))) :
    Agree S D (s.obj i >>= k) (Vars.get s.contents i >>= k') := by
  rw [get_contents]
  cases ho : s.objs[i]? with
  | none =>
    rw [obj_err ho]
    exact Or.inr ⟨_, rfl, rfl⟩
  | some o =>
    rw [obj_ok ho]
    exact h o ho

theorem agree_bind {S D : Prop} {α : Type} {x : Res α} {k : α → Res (Mem K V)} {k' : α → Res (Vars K V)}
    (h : ∀ a, x = .ok a → Agree S D (k a) (k' a)) : Agree S D (x >>= k) (x >>= k') := by
  cases x with
  | error e => exact Or.inr ⟨e, rfl, rfl⟩
  | ok a => exact h a rfl

theorem agree_push {S D : Prop} {s : Mem K V} (hs : s.Inv S D) {f : Field K V} {inf : List String} {n : Obj}
    (hb : n.Below (s.next + 1)) (ha : n.axes = s.next) (hi : n.infos = s.next)
    (hS : S → n.ats = s.next ∧ n.tao = s.next) (hD : D → n.buf = s.next ∧ n.loc = id)
    (hl : (s.push f inf n).load n = f) : Agree S D (.ok (s.push f inf n)) (.ok (s.contents ++ [(f, inf)])) := by
  refine Or.inl ⟨_, rfl, ?_, inv_push hs f inf n hb ha hi hS hD⟩
  rw [contents_push hs.below, hl, hi]
  simp [Mem.push]

theorem agree_fresh {S D : Prop} {s : Mem K V} (hs : s.Inv S D) (f : Field K V) (inf : List String) :
    Agree S D (.ok (s.push f inf (s.fresh f))) (.ok (s.contents ++ [(f, inf)])) :=
  agree_push hs ⟨Nat.lt_succ_self _, Nat.lt_succ_self _, Nat.lt_succ_self _, Nat.lt_succ_self _, Nat.lt_succ_self _⟩
    rfl rfl (fun _ => ⟨rfl, rfl⟩) (fun _ => ⟨rfl, rfl⟩) (load_fresh s f inf).1

theorem agree_states {S D : Prop} {s : Mem K V} (hs : s.Inv S D) (hS : ¬ S) {o : Obj} (ho : o ∈ s.objs) {f : Field K V}
    (h1 : f.ats = s.ats o.ats) (h2 : f.tao = s.tao o.tao) (inf : List String) :
    Agree S D (.ok (s.push f inf { s.fresh f with ats := o.ats, tao := o.tao })) (.ok (s.contents ++ [(f, inf)])) := by
  obtain ⟨b1, b2, b3, b4, b5⟩ := hs.below o ho
  refine agree_push hs ⟨Nat.lt_succ_self _, Nat.lt_succ_self _, Nat.lt_succ_of_lt b3, Nat.lt_succ_of_lt b4,
    Nat.lt_succ_self _⟩ rfl rfl (fun h => absurd h hS) (fun _ => ⟨rfl, rfl⟩) ?_
  unfold Mem.load Mem.push Mem.fresh
  simp only [Function.update_self, Function.update_of_ne (ne_of_lt b3), Function.update_of_ne (ne_of_lt b4), ← h1, ← h2]
  rfl

theorem agree_view {S D : Prop} {s : Mem K V} (hs : s.Inv S D) (hD : ¬ D) {o : Obj} (ho : o ∈ s.objs) {f : Field K V}
    {loc : List ℕ → List ℕ} (h : f.matrix.at' = fun idx => s.bufs o.buf (loc idx)) (inf : List String) :
    Agree S D (.ok (s.push f inf { s.fresh f with buf := o.buf, loc := loc })) (.ok (s.contents ++ [(f, inf)])) := by
  obtain ⟨b1, b2, b3, b4, b5⟩ := hs.below o ho
  refine agree_push hs ⟨Nat.lt_succ_of_lt b1, Nat.lt_succ_self _, Nat.lt_succ_self _, Nat.lt_succ_self _,
    Nat.lt_succ_self _⟩ rfl rfl (fun _ => ⟨rfl, rfl⟩) (fun h => absurd h hD) ?_
  unfold Mem.load Mem.push Mem.fresh
  simp only [Function.update_self, Function.update_of_ne (ne_of_lt b1), ← h]

theorem agree_set {S D : Prop} {s s' : Mem K V} {i : ℕ} {v : Field K V × List String} (hinv : s'.Inv S D)
    (hl : s'.objs.length = s.objs.length)
    (hi : ∀ o, s'.objs[i]? = some o → (s'.load o, s'.infos o.infos) = v)
    (hj : ∀ j o, j ≠ i → s.objs[j]? = some o →
      s'.objs[j]? = some o ∧ s'.load o = s.load o ∧ s'.infos o.infos = s.infos o.infos) :
    Agree S D (.ok s') (.ok (s.contents.set i v)) :=
  Or.inl ⟨_, rfl, by rw [contents_set hl hi hj], hinv⟩

theorem inv_objs {S D : Prop} {s s' : Mem K V} (h : s.Inv S D) (h1 : s'.objs = s.objs) (h2 : s'.next = s.next) :
    s'.Inv S D := by
  constructor
  · rw [h1, h2]
    exact h.below
  · rw [h1]
    exact h.apart
  · rw [h1]
    exact h.whole

/-- Replacing an object by one with the same or with new addresses. -/
theorem inv_set {S D : Prop} {s s' : Mem K V} (h : s.Inv S D) {i : ℕ} {o n : Obj} (ho : s.objs[i]? = some o)
    (h1 : s'.objs = s.objs.set i n) (h2 : s.next ≤ s'.next) (hb : n.Below s'.next) (ha : n.axes = o.axes)
    (hi : n.infos = o.infos) (hs : n.ats = o.ats ∧ n.tao = o.tao) (hd : n.buf = o.buf ∨ s.next ≤ n.buf)
    (hw : D → n.loc = id) : s'.Inv S D := by
  have key : ∀ j p, j ≠ i → s.objs[j]? = some p → n.Apart S D p := by
    intro j p hj hp
    obtain ⟨a1, a2, a3, a4⟩ := h.apart i j o p (Ne.symm hj) ho hp
    refine ⟨by rw [ha]; exact a1, by rw [hi]; exact a2, fun x => by rw [hs.1, hs.2]; exact a3 x, fun x => ?_⟩
    rcases hd with e | e
    · rw [e]
      exact a4 x
    · have := (h.below p (List.mem_of_getElem? hp)).1
      omega
  have hlt := (List.getElem?_eq_some_iff.1 ho).1
  constructor
  · intro p hp
    rw [h1] at hp
    rcases List.mem_or_eq_of_mem_set hp with hp | rfl
    · obtain ⟨b1, b2, b3, b4, b5⟩ := h.below p hp
      exact ⟨by omega, by omega, by omega, by omega, by omega⟩
    · exact hb
  · intro j k p q hjk hj hk
    rw [h1, List.getElem?_set] at hj hk
    by_cases e1 : i = j
    · subst e1
      rw [if_pos rfl, if_pos hlt] at hj
      cases hj
      rw [if_neg hjk] at hk
      exact key k q (Ne.symm hjk) hk
    · rw [if_neg e1] at hj
      by_cases e2 : i = k
      · subst e2
        rw [if_pos rfl, if_pos hlt] at hk
        cases hk
        exact (key j p hjk hj).symm
      · rw [if_neg e2] at hk
        exact h.apart j k p q hjk hj hk
  · intro hD p hp
    rw [h1] at hp
    rcases List.mem_or_eq_of_mem_set hp with hp | rfl
    · exact h.whole hD p hp
    · exact hw hD

open Classical in
theorem step_agree {S D : Prop} (spl : Splines K) {s : Mem K V} (hs : s.Inv S D) (c : Stmt K V)
    (c1 : S → ¬ SharesStates c) (c2 : ¬ S → ¬ EditsStates c) (c3 : D → ¬ SharesData c) (c4 : ¬ D → ¬ WritesData c) :
    Agree S D (step spl s c) (valueStep spl s.contents c) := by
  cases c with
  | copy i deep =>
    refine agree_obj fun o ho => ?_
    cases deep with
    | true => exact agree_fresh hs _ _
    | false => exact agree_view hs (fun h => c3 h trivial) (List.mem_of_getElem? ho) rfl _
  | number i g c =>
    refine agree_obj fun o ho => agree_bind fun r hr => ?_
    have := mkField_same hr
    exact agree_states hs (fun h => c1 h trivial) (List.mem_of_getElem? ho) (by rw [this]; rfl) (by rw [this]; rfl) _
  | unary i u =>
    refine agree_obj fun o ho => agree_bind fun r hr => ?_
    have := mkField_same hr
    exact agree_states hs (fun h => c1 h trivial) (List.mem_of_getElem? ho) (by rw [this]; rfl) (by rw [this]; rfl) _
  | array i g b => exact agree_obj fun o ho => agree_bind fun r hr => agree_fresh hs _ _
  | binary i j g => exact agree_obj fun o ho => agree_obj fun p hp => agree_bind fun r hr => agree_fresh hs _ _
  | reduce i red axis kd => exact agree_obj fun o ho => agree_bind fun r hr => agree_fresh hs _ _
  | outer i j g => exact agree_obj fun o ho => agree_obj fun p hp => agree_bind fun r hr => agree_fresh hs _ _
  | replaceData i m => exact agree_obj fun o ho => agree_bind fun r hr => agree_fresh hs _ _
  | real i =>
    exact agree_obj fun o ho => agree_view hs (fun h => c3 h trivial) (List.mem_of_getElem? ho) rfl _
  | getitem i key =>
    refine agree_obj fun o ho => agree_bind fun r hr => ?_
    obtain ⟨p, hp⟩ := getitem_picks hr
    rw [hp]
    by_cases ha : allOne p = true
    · show Agree S D (.ok (s.push _ _ (if allOne p = true then _ else _))) _
      rw [if_pos ha]
      exact agree_fresh hs _ _
    · show Agree S D (.ok (s.push _ _ (if allOne p = true then _ else _))) _
      rw [if_neg ha]
      refine agree_view hs (fun h => c3 h trivial) (List.mem_of_getElem? ho) ?_ _
      rw [getitem_matrix hr hp]
      rfl
  | setitem i idx v =>
    refine agree_obj fun o ho => ?_
    have hD : D := by
      by_contra h
      exact c4 h trivial
    have hloc := hs.whole hD o (List.mem_of_getElem? ho)
    show Agree S D (if idxOk o.shape idx = true then _ else _) (if InBounds o.shape idx then _ else _)
    by_cases hb : InBounds o.shape idx
    · rw [if_pos hb, if_pos ((idxOk_iff _ _).2 hb)]
      refine agree_set (inv_objs hs rfl rfl) rfl ?_ ?_
      · intro o' ho'
        obtain rfl : o = o' := Option.some.inj (ho.symm.trans ho')
        unfold Mem.load
        simp only [Function.update_self, hloc, id]
        rfl
      · intro j p hj hp
        have := (hs.apart j i p o hj hp ho).2.2.2 hD
        refine ⟨hp, ?_, rfl⟩
        unfold Mem.load
        simp only [Function.update_of_ne this]
    · rw [if_neg hb, if_neg (by rw [idxOk_iff]; exact hb)]
      exact Or.inr ⟨_, rfl, rfl⟩
  | inplace i g c =>
    refine agree_obj fun o ho => ?_
    have hD : D := by
      by_contra h
      exact c4 h trivial
    have hloc := hs.whole hD o (List.mem_of_getElem? ho)
    refine agree_set (inv_objs hs rfl rfl) rfl ?_ ?_
    · intro o' ho'
      obtain rfl : o = o' := Option.some.inj (ho.symm.trans ho')
      unfold Mem.load
      have e : ∀ p, (∃ idx, InBounds o.shape idx ∧ o.loc idx = p) ↔ InBounds o.shape p := by
        intro p
        rw [hloc]
        simp
      simp only [Function.update_self, e]
      simp only [hloc, id]
      rfl
    · intro j p hj hp
      have := (hs.apart j i p o hj hp ho).2.2.2 hD
      refine ⟨hp, ?_, rfl⟩
      unfold Mem.load
      simp only [Function.update_of_ne this]
  | setaxisobj i d ax =>
    refine agree_obj fun o ho => agree_bind fun _ _ => agree_bind fun l hl => ?_
    refine agree_set (inv_objs hs rfl rfl) rfl ?_ ?_
    · intro o' ho'
      obtain rfl : o = o' := Option.some.inj (ho.symm.trans ho')
      unfold Mem.load
      simp only [Function.update_self]
    · intro j p hj hp
      have := (hs.apart j i p o hj hp ho).1
      refine ⟨hp, ?_, rfl⟩
      unfold Mem.load
      simp only [Function.update_of_ne this]
  | editAxes i e =>
    refine agree_obj fun o ho => ?_
    refine agree_set (inv_objs hs rfl rfl) rfl ?_ ?_
    · intro o' ho'
      obtain rfl : o = o' := Option.some.inj (ho.symm.trans ho')
      unfold Mem.load
      simp only [Function.update_self]
    · intro j p hj hp
      have := (hs.apart j i p o hj hp ho).1
      refine ⟨hp, ?_, rfl⟩
      unfold Mem.load
      simp only [Function.update_of_ne this]
  | editStates i e =>
    have hS : S := by
      by_contra h
      exact c2 h trivial
    refine agree_obj fun o ho => ?_
    refine agree_set (inv_objs hs rfl rfl) rfl ?_ ?_
    · intro o' ho'
      obtain rfl : o = o' := Option.some.inj (ho.symm.trans ho')
      unfold Mem.load
      simp only [Function.update_self]
    · intro j p hj hp
      have := ((hs.apart j i p o hj hp ho).2.2.1 hS).1
      refine ⟨hp, ?_, rfl⟩
      unfold Mem.load
      simp only [Function.update_of_ne this]
  | editOrigins i e =>
    have hS : S := by
      by_contra h
      exact c2 h trivial
    refine agree_obj fun o ho => ?_
    refine agree_set (inv_objs hs rfl rfl) rfl ?_ ?_
    · intro o' ho'
      obtain rfl : o = o' := Option.some.inj (ho.symm.trans ho')
      unfold Mem.load
      simp only [Function.update_self]
    · intro j p hj hp
      have := ((hs.apart j i p o hj hp ho).2.2.1 hS).2
      refine ⟨hp, ?_, rfl⟩
      unfold Mem.load
      simp only [Function.update_of_ne this]
  | editInfos i e =>
    refine agree_obj fun o ho => ?_
    refine agree_set (inv_objs hs rfl rfl) rfl ?_ ?_
    · intro o' ho'
      obtain rfl : o = o' := Option.some.inj (ho.symm.trans ho')
      simp only [Function.update_self]
      rfl
    · intro j p hj hp
      have := (hs.apart j i p o hj hp ho).2.1
      refine ⟨hp, rfl, ?_⟩
      simp only [Function.update_of_ne this]
  | setName i n =>
    refine agree_obj fun o ho => ?_
    have hlt := (List.getElem?_eq_some_iff.1 ho).1
    refine agree_set (inv_set hs ho rfl le_rfl (hs.below o (List.mem_of_getElem? ho)) rfl rfl ⟨rfl, rfl⟩ (Or.inl rfl)
      fun h => hs.whole h o (List.mem_of_getElem? ho)) (List.length_set ..) ?_ ?_
    · intro o' ho'
      change (s.objs.set i _)[i]? = _ at ho'
      rw [List.getElem?_set, if_pos rfl, if_pos hlt] at ho'
      cases ho'
      rfl
    · intro j p hj hp
      refine ⟨?_, rfl, rfl⟩
      show (s.objs.set i _)[j]? = _
      rw [List.getElem?_set, if_neg (Ne.symm hj), hp]
  | setUnit i n =>
    refine agree_obj fun o ho => ?_
    have hlt := (List.getElem?_eq_some_iff.1 ho).1
    refine agree_set (inv_set hs ho rfl le_rfl (hs.below o (List.mem_of_getElem? ho)) rfl rfl ⟨rfl, rfl⟩ (Or.inl rfl)
      fun h => hs.whole h o (List.mem_of_getElem? ho)) (List.length_set ..) ?_ ?_
    · intro o' ho'
      change (s.objs.set i _)[i]? = _ at ho'
      rw [List.getElem?_set, if_pos rfl, if_pos hlt] at ho'
      cases ho'
      rfl
    · intro j p hj hp
      refine ⟨?_, rfl, rfl⟩
      show (s.objs.set i _)[j]? = _
      rw [List.getElem?_set, if_neg (Ne.symm hj), hp]
  | setMatrix i m =>
    refine agree_obj fun o ho => ?_
    show Agree S D (if m.shape ≠ o.shape then _ else _) (if m.shape ≠ o.shape then _ else _)
    by_cases hm : m.shape ≠ o.shape
    · rw [if_pos hm, if_pos hm]
      exact Or.inr ⟨_, rfl, rfl⟩
    · rw [if_neg hm, if_neg hm]
      rw [not_not] at hm
      have hlt := (List.getElem?_eq_some_iff.1 ho).1
      obtain ⟨b1, b2, b3, b4, b5⟩ := hs.below o (List.mem_of_getElem? ho)
      refine agree_set (inv_set hs ho rfl (Nat.le_succ _) ⟨Nat.lt_succ_self _, Nat.lt_succ_of_lt b2,
        Nat.lt_succ_of_lt b3, Nat.lt_succ_of_lt b4, Nat.lt_succ_of_lt b5⟩ rfl rfl ⟨rfl, rfl⟩ (Or.inr le_rfl)
        fun _ => rfl) (List.length_set ..) ?_ ?_
      · intro o' ho'
        change (s.objs.set i _)[i]? = _ at ho'
        rw [List.getElem?_set, if_pos rfl, if_pos hlt] at ho'
        cases ho'
        unfold Mem.load
        simp only [Function.update_self, id, ← hm]
      · intro j p hj hp
        have := ne_of_lt (hs.below p (List.mem_of_getElem? hp)).1
        refine ⟨?_, ?_, rfl⟩
        · show (s.objs.set i _)[j]? = _
          rw [List.getElem?_set, if_neg (Ne.symm hj), hp]
        · unfold Mem.load
          simp only [Function.update_of_ne this]

theorem exec_agree {S D : Prop} (spl : Splines K) : ∀ (cs : List (Stmt K V)) (s : Mem K V), s.Inv S D →
    (S → ∀ c ∈ cs, ¬ SharesStates c) → (¬ S → ∀ c ∈ cs, ¬ EditsStates c) →
    (D → ∀ c ∈ cs, ¬ SharesData c) → (¬ D → ∀ c ∈ cs, ¬ WritesData c) →
    Agree S D (exec spl s cs) (valueExec spl s.contents cs)
  | [], s, hs, _, _, _, _ => Or.inl ⟨s, rfl, rfl, hs⟩
  | c :: cs, s, hs, c1, c2, c3, c4 => by
    unfold exec valueExec
    rcases step_agree spl hs c (fun h => c1 h c (by simp)) (fun h => c2 h c (by simp)) (fun h => c3 h c (by simp))
      (fun h => c4 h c (by simp)) with ⟨s', h1, h2, h3⟩ | ⟨e, h1, h2⟩
    · rw [h1, h2]
      exact exec_agree spl cs s' h3 (fun h d hd => c1 h d (by simp [hd])) (fun h d hd => c2 h d (by simp [hd]))
        (fun h d hd => c3 h d (by simp [hd])) (fun h d hd => c4 h d (by simp [hd]))
    · rw [h1, h2]
      exact Or.inr ⟨e, rfl, rfl⟩

theorem create_inv [Inhabited V] (S D : Prop) (l : List (Field K V)) :
    (Mem.create l).Inv S D ∧ (Mem.create l).contents = l.map fun f => (f, []) := by
  have key : ∀ (l : List (Field K V)) (s : Mem K V), s.Inv S D →
      (l.foldl (fun s f => s.push f [] (s.fresh f)) s).Inv S D ∧
      (l.foldl (fun s f => s.push f [] (s.fresh f)) s).contents = s.contents ++ l.map fun f => (f, []) := by
    intro l
    induction l with
    | nil => exact fun s hs => ⟨hs, by simp⟩
    | cons f l ih =>
      intro s hs
      rcases agree_fresh hs f [] with ⟨s', h1, h2, h3⟩ | ⟨e, h1, -⟩
      · cases h1
        obtain ⟨a, b⟩ := ih _ h3
        refine ⟨a, ?_⟩
        rw [List.foldl_cons, b, ← Except.ok.inj h2]
        simp
      · cases h1
  have := key l Mem.empty ⟨by simp [Mem.empty], by simp [Mem.empty], by simp [Mem.empty]⟩
  exact ⟨this.1, this.2⟩

/-! ### All programs -/

/-- All addresses are in use. -/
def Mem.Ok (s : Mem K V) : Prop := ∀ o ∈ s.objs, o.Below s.next

theorem ok_push {s : Mem K V} (h : s.Ok) (f : Field K V) (inf : List String) {n : Obj} (hb : n.Below (s.next + 1)) :
    (s.push f inf n).Ok := by
  intro o ho
  rcases List.mem_append.1 ho with ho | ho
  · obtain ⟨h1, h2, h3, h4, h5⟩ := h o ho
    exact ⟨Nat.lt_succ_of_lt h1, Nat.lt_succ_of_lt h2, Nat.lt_succ_of_lt h3, Nat.lt_succ_of_lt h4, Nat.lt_succ_of_lt h5⟩
  · rw [List.mem_singleton.1 ho]
    exact hb

theorem fresh_below (s : Mem K V) (f : Field K V) : (s.fresh f).Below (s.next + 1) :=
  ⟨Nat.lt_succ_self _, Nat.lt_succ_self _, Nat.lt_succ_self _, Nat.lt_succ_self _, Nat.lt_succ_self _⟩

/-- What is known without any condition: a statement that returns a field changes nothing. -/
def Grows (s : Mem K V) (r : Res (Mem K V)) (v : Res (Vars K V)) : Prop :=
  (∃ s', r = .ok s' ∧ v = .ok s'.contents ∧ s'.Ok ∧ ∃ x, s'.contents = s.contents ++ [x]) ∨
    ∃ e, r = .error e ∧ v = .error e

theorem grows_obj {s : Mem K V} {i : ℕ} {k : Obj → Res (Mem K V)} {k' : Field K V × List String → Res (Vars K V)}
    (h : ∀ o, s.objs[i]? = some o → Grows s (k o) (k' (s.load o, s.infos o.infos))) :
    Grows s (s.obj i >>= k) (Vars.get s.contents i >>= k') := by
  rw [get_contents]
  cases ho : s.objs[i]? with
  | none =>
    rw [obj_err ho]
    exact Or.inr ⟨_, rfl, rfl⟩
  | some o =>
    rw [obj_ok ho]
    exact h o ho

theorem grows_bind {s : Mem K V} {α : Type} {x : Res α} {k : α → Res (Mem K V)} {k' : α → Res (Vars K V)}
    (h : ∀ a, x = .ok a → Grows s (k a) (k' a)) : Grows s (x >>= k) (x >>= k') := by
  cases x with
  | error e => exact Or.inr ⟨e, rfl, rfl⟩
  | ok a => exact h a rfl

theorem grows_push {s : Mem K V} (hs : s.Ok) {f : Field K V} {inf : List String} {n : Obj} (hb : n.Below (s.next + 1))
    (hi : n.infos = s.next) (hl : (s.push f inf n).load n = f) :
    Grows s (.ok (s.push f inf n)) (.ok (s.contents ++ [(f, inf)])) := by
  have e : (s.push f inf n).contents = s.contents ++ [(f, inf)] := by
    rw [contents_push hs, hl, hi]
    simp [Mem.push]
  exact Or.inl ⟨_, rfl, by rw [e], ok_push hs f inf hb, _, e⟩

theorem grows_fresh {s : Mem K V} (hs : s.Ok) (f : Field K V) (inf : List String) :
    Grows s (.ok (s.push f inf (s.fresh f))) (.ok (s.contents ++ [(f, inf)])) :=
  grows_push hs (fresh_below s f) rfl (load_fresh s f inf).1

theorem grows_states {s : Mem K V} (hs : s.Ok) {o : Obj} (ho : o ∈ s.objs) {f : Field K V}
    (h1 : f.ats = s.ats o.ats) (h2 : f.tao = s.tao o.tao) (inf : List String) :
    Grows s (.ok (s.push f inf { s.fresh f with ats := o.ats, tao := o.tao })) (.ok (s.contents ++ [(f, inf)])) := by
  obtain ⟨b1, b2, b3, b4, b5⟩ := hs o ho
  refine grows_push hs ⟨Nat.lt_succ_self _, Nat.lt_succ_self _, Nat.lt_succ_of_lt b3, Nat.lt_succ_of_lt b4,
    Nat.lt_succ_self _⟩ rfl ?_
  unfold Mem.load Mem.push Mem.fresh
  simp only [Function.update_self, Function.update_of_ne (ne_of_lt b3), Function.update_of_ne (ne_of_lt b4), ← h1, ← h2]
  rfl

theorem grows_view {s : Mem K V} (hs : s.Ok) {o : Obj} (ho : o ∈ s.objs) {f : Field K V}
    {loc : List ℕ → List ℕ} (h : f.matrix.at' = fun idx => s.bufs o.buf (loc idx)) (inf : List String) :
    Grows s (.ok (s.push f inf { s.fresh f with buf := o.buf, loc := loc })) (.ok (s.contents ++ [(f, inf)])) := by
  obtain ⟨b1, b2, b3, b4, b5⟩ := hs o ho
  refine grows_push hs ⟨Nat.lt_succ_of_lt b1, Nat.lt_succ_self _, Nat.lt_succ_self _, Nat.lt_succ_self _,
    Nat.lt_succ_self _⟩ rfl ?_
  unfold Mem.load Mem.push Mem.fresh
  simp only [Function.update_self, Function.update_of_ne (ne_of_lt b1), ← h]

theorem step_grows (spl : Splines K) {s : Mem K V} (hs : s.Ok) (c : Stmt K V) (hc : changes c = none) :
    Grows s (step spl s c) (valueStep spl s.contents c) := by
  cases c with
  | copy i deep =>
    refine grows_obj fun o ho => ?_
    cases deep with
    | true => exact grows_fresh hs _ _
    | false => exact grows_view hs (List.mem_of_getElem? ho) rfl _
  | number i g c =>
    refine grows_obj fun o ho => grows_bind fun r hr => ?_
    have := mkField_same hr
    exact grows_states hs (List.mem_of_getElem? ho) (by rw [this]; rfl) (by rw [this]; rfl) _
  | unary i u =>
    refine grows_obj fun o ho => grows_bind fun r hr => ?_
    have := mkField_same hr
    exact grows_states hs (List.mem_of_getElem? ho) (by rw [this]; rfl) (by rw [this]; rfl) _
  | array i g b => exact grows_obj fun o ho => grows_bind fun r hr => grows_fresh hs _ _
  | binary i j g => exact grows_obj fun o ho => grows_obj fun p hp => grows_bind fun r hr => grows_fresh hs _ _
  | reduce i red axis kd => exact grows_obj fun o ho => grows_bind fun r hr => grows_fresh hs _ _
  | outer i j g => exact grows_obj fun o ho => grows_obj fun p hp => grows_bind fun r hr => grows_fresh hs _ _
  | replaceData i m => exact grows_obj fun o ho => grows_bind fun r hr => grows_fresh hs _ _
  | real i => exact grows_obj fun o ho => grows_view hs (List.mem_of_getElem? ho) rfl _
  | getitem i key =>
    refine grows_obj fun o ho => grows_bind fun r hr => ?_
    obtain ⟨p, hp⟩ := getitem_picks hr
    rw [hp]
    by_cases ha : allOne p = true
    · show Grows s (.ok (s.push _ _ (if allOne p = true then _ else _))) _
      rw [if_pos ha]
      exact grows_fresh hs _ _
    · show Grows s (.ok (s.push _ _ (if allOne p = true then _ else _))) _
      rw [if_neg ha]
      refine grows_view hs (List.mem_of_getElem? ho) ?_ _
      rw [getitem_matrix hr hp]
      rfl
  | setitem | inplace | setaxisobj | editAxes | editStates | editOrigins | editInfos | setName | setUnit | setMatrix =>
    cases hc

theorem obj_mem {s : Mem K V} {i : ℕ} {o : Obj} (h : s.obj i = .ok o) : s.objs[i]? = some o := by
  unfold Mem.obj at h
  split at h
  · cases h
    assumption
  · cases h

theorem ok_set {s s' : Mem K V} (hs : s.Ok) {i : ℕ} {n : Obj} (h1 : s'.objs = s.objs.set i n) (h2 : s.next ≤ s'.next)
    (hb : n.Below s'.next) : s'.Ok := by
  intro p hp
  rw [h1] at hp
  rcases List.mem_or_eq_of_mem_set hp with hp | rfl
  · obtain ⟨b1, b2, b3, b4, b5⟩ := hs p hp
    exact ⟨by omega, by omega, by omega, by omega, by omega⟩
  · exact hb

theorem step_ok (spl : Splines K) {s s' : Mem K V} (hs : s.Ok) (c : Stmt K V) (h : step spl s c = .ok s') : s'.Ok := by
  by_cases hc : changes c = none
  · rcases step_grows spl hs c hc with ⟨t, h1, -, h3, -⟩ | ⟨e, h1, -⟩
    · rw [h] at h1
      cases h1
      exact h3
    · rw [h] at h1
      cases h1
  · cases c with
    | setitem i idx v =>
      obtain ⟨o, ho, h⟩ := bind_ok h
      split at h
      · cases h
        exact hs
      · cases h
    | inplace i g c =>
      obtain ⟨o, ho, h⟩ := bind_ok h
      cases h
      exact hs
    | setaxisobj i d ax =>
      obtain ⟨o, ho, h⟩ := bind_ok h
      obtain ⟨_, -, h⟩ := bind_ok h
      obtain ⟨l, -, h⟩ := bind_ok h
      cases h
      exact hs
    | editAxes i e =>
      obtain ⟨o, ho, h⟩ := bind_ok h
      cases h
      exact hs
    | editStates i e =>
      obtain ⟨o, ho, h⟩ := bind_ok h
      cases h
      exact hs
    | editOrigins i e =>
      obtain ⟨o, ho, h⟩ := bind_ok h
      cases h
      exact hs
    | editInfos i e =>
      obtain ⟨o, ho, h⟩ := bind_ok h
      cases h
      exact hs
    | setName i n =>
      obtain ⟨o, ho, h⟩ := bind_ok h
      cases h
      exact ok_set hs rfl le_rfl (hs o (List.mem_of_getElem? (obj_mem ho)))
    | setUnit i n =>
      obtain ⟨o, ho, h⟩ := bind_ok h
      cases h
      exact ok_set hs rfl le_rfl (hs o (List.mem_of_getElem? (obj_mem ho)))
    | setMatrix i m =>
      obtain ⟨o, ho, h⟩ := bind_ok h
      obtain ⟨b1, b2, b3, b4, b5⟩ := hs o (List.mem_of_getElem? (obj_mem ho))
      split at h
      · cases h
      · cases h
        exact ok_set hs rfl (Nat.le_succ _) ⟨Nat.lt_succ_self _, Nat.lt_succ_of_lt b2, Nat.lt_succ_of_lt b3,
          Nat.lt_succ_of_lt b4, Nat.lt_succ_of_lt b5⟩
    | _ => exact absurd rfl hc

theorem exec_ok (spl : Splines K) : ∀ (cs : List (Stmt K V)) (s s' : Mem K V), s.Ok → exec spl s cs = .ok s' → s'.Ok
  | [], s, s', hs, h => by
    cases h
    exact hs
  | c :: cs, s, s', hs, h => by
    unfold exec at h
    obtain ⟨t, ht, h⟩ := bind_ok h
    exact exec_ok spl cs t s' (step_ok spl hs c ht) h

/-! ### Values -/

theorem get_ok {vs : Vars K V} {i : ℕ} {v : Field K V × List String} (h : vs.get i = .ok v) : vs[i]? = some v := by
  unfold Vars.get at h
  split at h
  · cases h
    assumption
  · cases h

theorem value_changes (spl : Splines K) {vs ws : Vars K V} {c : Stmt K V} {i : ℕ} (hc : changes c = some i)
    (h : valueStep spl vs c = .ok ws) : ∃ v, ws = vs.set i v := by
  cases c with
  | setitem i idx v =>
    cases hc
    obtain ⟨f, hf, h⟩ := bind_ok h
    split at h
    · cases h
      exact ⟨_, rfl⟩
    · cases h
  | setaxisobj i d ax =>
    cases hc
    obtain ⟨f, hf, h⟩ := bind_ok h
    obtain ⟨_, -, h⟩ := bind_ok h
    obtain ⟨l, -, h⟩ := bind_ok h
    cases h
    exact ⟨_, rfl⟩
  | setMatrix i m =>
    cases hc
    obtain ⟨f, hf, h⟩ := bind_ok h
    split at h
    · cases h
    · cases h
      exact ⟨_, rfl⟩
  | inplace | editAxes | editStates | editOrigins | editInfos | setName | setUnit =>
    cases hc
    obtain ⟨f, hf, h⟩ := bind_ok h
    cases h
    exact ⟨_, rfl⟩
  | _ => cases hc

theorem value_exec_changes (spl : Splines K) {i : ℕ} : ∀ (cs : List (Stmt K V)) (vs ws : Vars K V),
    (∀ c ∈ cs, changes c = some i) → valueExec spl vs cs = .ok ws →
    ws.length = vs.length ∧ ∀ j, j ≠ i → ws[j]? = vs[j]?
  | [], vs, ws, _, h => by
    cases h
    exact ⟨rfl, fun _ _ => rfl⟩
  | c :: cs, vs, ws, hc, h => by
    unfold valueExec at h
    obtain ⟨t, ht, h⟩ := bind_ok h
    obtain ⟨v, rfl⟩ := value_changes spl (hc c (by simp)) ht
    obtain ⟨h1, h2⟩ := value_exec_changes spl cs _ ws (fun d hd => hc d (by simp [hd])) h
    refine ⟨by rw [h1, List.length_set], ?_⟩
    intro j hj
    rw [h2 j hj, List.getElem?_set, if_neg (Ne.symm hj)]

end Postpic.Fields
