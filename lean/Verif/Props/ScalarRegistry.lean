import Verif.Lemmas.Scalars

/-!
# C16: the registry of particle scalars
-/

set_option autoImplicit false

namespace Postpic.Props

open Postpic Postpic.Scalars

/-- Calls a user can make on the registry. -/
inductive RegOp where
  | add (sp : SP)
  | remove (symbol : String)
  | lookup (expr : String)

/-- What the user sees. -/
inductive RegOut where
  | done
  | error (e : Err)
  | scalar (sp : SP)
  deriving DecidableEq

/-- The code: one call. A failing call leaves the registry as it was. -/
def regStep (r : Registry) : RegOp → RegOut × Registry
  | .add sp => match r.add sp with
    | .ok r' => (.done, r')
    | .error e => (.error e, r)
  | .remove s => match r.remove s with
    | .ok r' => (.done, r')
    | .error e => (.error e, r)
  | .lookup x => (.scalar (r.call x), r)

/-- The code: a history of calls, returning the outputs. -/
def regRun : Registry → List RegOp → List RegOut
  | _, [] => []
  | r, op :: ops => (regStep r op).1 :: regRun (regStep r op).2 ops

/-- Specification: a partial map from symbols to scalars. `specOk m op out m'` says that `out` is an
admissible answer and `m'` the map afterwards. -/
def specOk (m : String → Option SP) : RegOp → RegOut → (String → Option SP) → Prop
  | .add sp, out, m' => match sp.symbol with
    | none => out = .error .valueError ∧ m' = m
    | some s => if (m s).isSome then out = .error .keyError ∧ m' = m
      else out = .done ∧ m' = fun k => if k = s then some sp else m k
  | .remove s, out, m' => if (m s).isSome then out = .done ∧ m' = (fun k => if k = s then none else m k)
      else out = .error .keyError ∧ m' = m
  | .lookup x, out, m' => m' = m ∧ match m x with
    | some sp => out = .scalar sp
    | none => ∃ sp, out = .scalar sp ∧ sp.expr = x ∧
        ((∃ k, m k = some sp) ∨ (sp = ⟨x, none, none, none⟩ ∧ ∀ k sp', m k = some sp' → sp'.expr ≠ x))

/-- A history and its outputs are admissible. -/
def specRunOk (m : String → Option SP) : List RegOp → List RegOut → Prop
  | [], [] => True
  | op :: ops, out :: outs => ∃ m', specOk m op out m' ∧ specRunOk m' ops outs
  | _, _ => False

/-- Keys of the dictionary are unique. -/
def KeysNodup (r : Registry) : Prop := (r.map (·.1)).Nodup

theorem get_of_mem {r : Registry} (hr : KeysNodup r) {k : String} {sp : SP} (h : (k, sp) ∈ r) :
    r.get k = some sp := by
  induction r with
  | nil => simp at h
  | cons p r ih =>
    obtain ⟨k', sp'⟩ := p
    simp only [KeysNodup, List.map_cons, List.nodup_cons] at hr
    unfold Registry.get
    rcases List.mem_cons.1 h with h | h
    · cases h; simp
    · have : k' ≠ k := by
        rintro rfl
        exact hr.1 (List.mem_map.2 ⟨_, h, rfl⟩)
      rw [if_neg this]
      exact ih hr.2 h

theorem not_mem_keys {r : Registry} {s : String} (h : r.get s = none) : s ∉ r.map (·.1) := by
  induction r with
  | nil => simp
  | cons p r ih =>
    obtain ⟨k', sp'⟩ := p
    unfold Registry.get at h
    split at h
    · cases h
    · rename_i hne
      simp only [List.map_cons, List.mem_cons, not_or]
      exact ⟨fun h => hne h.symm, ih h⟩

theorem regStep_ok (r : Registry) (hr : KeysNodup r) (op : RegOp) :
    specOk r.get op (regStep r op).1 (regStep r op).2.get ∧ KeysNodup (regStep r op).2 := by
  cases op with
  | add sp =>
    simp only [regStep, Registry.add, specOk]
    cases hs : sp.symbol with
    | none => exact ⟨⟨rfl, rfl⟩, hr⟩
    | some s =>
      simp only
      cases hg : r.get s with
      | some sp' => simp only [Option.isSome_some, if_true]; exact ⟨⟨trivial, trivial⟩, hr⟩
      | none =>
        simp only [Option.isSome_none, Bool.false_eq_true, if_false]
        refine ⟨⟨trivial, ?_⟩, ?_⟩
        · funext k; exact get_append r k s sp hg
        · have := not_mem_keys hg
          simp only [KeysNodup, List.map_append, List.map_cons, List.map_nil]
          rw [List.nodup_append]
          refine ⟨hr, by simp, ?_⟩
          intro a ha b hb
          simp only [List.mem_singleton] at hb
          subst hb
          rintro rfl
          exact this ha
  | remove s =>
    simp only [regStep, Registry.remove, specOk]
    cases hg : r.get s with
    | none => simp only [Option.isSome_none, Bool.false_eq_true, if_false]; exact ⟨⟨trivial, trivial⟩, hr⟩
    | some sp =>
      simp only [Option.isSome_some, if_true]
      refine ⟨⟨trivial, ?_⟩, ?_⟩
      · funext k; exact get_filter r k s
      · exact List.Nodup.sublist (List.filter_sublist.map _) hr
  | lookup x =>
    simp only [regStep, specOk]
    refine ⟨⟨trivial, ?_⟩, hr⟩
    cases hg : r.get x with
    | some sp => simp [Registry.call, hg]
    | none =>
      simp only [Registry.call, hg]
      cases hf : r.find? (fun p => decide (p.2.expr = x)) with
      | some p =>
        have h1 := List.find?_some hf
        have h2 := List.mem_of_find?_eq_some hf
        exact ⟨p.2, rfl, by simpa using h1, Or.inl ⟨p.1, get_of_mem hr h2⟩⟩
      | none =>
        refine ⟨_, rfl, rfl, Or.inr ⟨rfl, ?_⟩⟩
        intro k sp' hk
        have := List.find?_eq_none.1 hf _ (get_mem hk)
        simpa using this

/-- C16: for every history of additions, removals and lookups starting from any registry with
unique symbols, the registry behaves like a partial map. -/
theorem registry_refines_map (ops : List RegOp) (r : Registry) (hr : KeysNodup r) :
    specRunOk r.get ops (regRun r ops) := by
  induction ops generalizing r with
  | nil => trivial
  | cons op ops ih =>
    obtain ⟨h1, h2⟩ := regStep_ok r hr op
    exact ⟨_, h1, ih _ h2⟩

/-- Importing the package creates the default registry without an error: all 56 predefined scalars
have different symbols. -/
theorem default_registry_created : createDefault = .ok defaultRegistry := by decide +kernel

theorem default_keys_nodup : KeysNodup defaultRegistry := by
  unfold KeysNodup; decide +kernel

/-- Every predefined scalar is found under its symbol. -/
theorem default_lookup (sp : SP) (h : sp ∈ defaultScalars) :
    ∃ s, sp.symbol = some s ∧ defaultRegistry.call s = sp := by
  have hall : ∀ sp ∈ defaultScalars, sp.symbol.isSome = true := by decide +kernel
  obtain ⟨s, hs⟩ := Option.isSome_iff_exists.1 (hall sp h)
  refine ⟨s, hs, ?_⟩
  have : (s, sp) ∈ defaultRegistry := List.mem_map.2 ⟨sp, h, by simp [hs]⟩
  simp [Registry.call, get_of_mem default_keys_nodup this]

/-- Example: a new scalar, the refused second registration, lookup by symbol and by expression. -/
example : regRun defaultRegistry
    [.add ⟨"2*x", some "xx", none, none⟩, .add ⟨"3*x", some "xx", none, none⟩, .lookup "xx",
      .lookup "2*x", .lookup "7*x", .remove "xx", .remove "xx", .lookup "2*x"]
    = [.done, .error .keyError, .scalar ⟨"2*x", some "xx", none, none⟩,
      .scalar ⟨"2*x", some "xx", none, none⟩, .scalar ⟨"7*x", none, none, none⟩, .done,
      .error .keyError, .scalar ⟨"2*x", none, none, none⟩] := by decide +kernel

end Postpic.Props
