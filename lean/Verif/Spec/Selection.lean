import Mathlib.Data.List.Range
import Verif.Model.Particles

/-!
# Specification of filtered particle species

A filtered species is the list of the selected particles (their positions in the dump, in order).
Only the types of the model (keys, dumps) and `fetch` (which property comes from where) are used.
-/

set_option autoImplicit false

namespace Postpic.Spec

open Postpic Postpic.Particles

variable {V : Type}

/-- All data sets of the species have one entry per particle, `N` particles. If the particles cannot be counted by their weights,
positions or momenta, then nothing worse happens than missing data (an unknown name of the species does not matter otherwise). -/
def WellFormed (d : Dump V) (N : ℕ) : Prop :=
  (∀ k l, fetch d k = .ok (.array l) → l.length = N) ∧
  ((∃ k l, fetch d k = .ok (.array l)) ∨ N = 0) ∧
  ((∃ k, k ∈ [Key.weight, .x, .y, .z, .px, .py, .pz] ∧ ∃ l, fetch d k = .ok (.array l)) ∨
    ∀ k e, fetch d k = .error e → e = .keyError)

/-- The operations a user can apply to a species. -/
inductive Op (V : Type) where
  | read (k : Key)
  | length
  | compress (c : List Bool)
  | select (ids : List Int)
  | filter (k : Key) (p : V → Bool)
  | invert
  | uncompress

/-- What the user sees. -/
inductive Out (V : Type) where
  | number (v : V)
  | values (l : List (Option V))
  | len (n : ℕ)
  | done
  | error (e : Err)

/-- Entry `i` of the data set `k`. -/
def dataAt (d : Dump V) (k : Key) (i : ℕ) : Option V :=
  match fetch d k with
  | .ok (.array l) => l[i]?
  | .ok (.scalar v) => some v
  | .error _ => none

/-- Effect of an operation on the list of selected particles. -/
def specStep (toInt : V → Int) (d : Dump V) (N : ℕ) (sel : List ℕ) : Op V → Out V × List ℕ
  | .read k => match fetch d k with
    | .error e => (.error e, sel)
    | .ok (.scalar v) => (.number v, sel)
    | .ok (.array _) => (.values (sel.map (dataAt d k)), sel)
  | .length => (.len sel.length, sel)
  | .compress c =>
    if c.length ≠ sel.length then (.error .valueError, sel)
    else (.done, ((sel.zip c).filter fun ic => ic.2).map Prod.fst)
  | .select ids => match fetch d .id with
    | .error e => (.error e, sel)
    | .ok (.scalar _) => (.error .typeError, sel)
    | .ok (.array _) => (.done, sel.filter fun i => ((dataAt d .id i).map toInt).any (· ∈ ids))
  | .filter k p => match fetch d k with
    | .error e => (.error e, sel)
    | .ok (.scalar _) => (.error .typeError, sel)
    | .ok (.array _) => (.done, sel.filter fun i => (dataAt d k i).any p)
  | .invert => (.done, (List.range N).filter fun i => i ∉ sel)
  | .uncompress => (.done, List.range N)

/-- A whole history. -/
def specRun (toInt : V → Int) (d : Dump V) (N : ℕ) : List ℕ → List (Op V) → List (Out V)
  | _, [] => []
  | sel, op :: ops =>
    (specStep toInt d N sel op).1 :: specRun toInt d N (specStep toInt d N sel op).2 ops

/-- Conditions under which the code is correct: conditions and id lists are not applied when no
particle is left, and lists of ids are not empty. -/
def Admissible (toInt : V → Int) (d : Dump V) (N : ℕ) : List ℕ → List (Op V) → Prop
  | _, [] => True
  | sel, op :: ops =>
    (match op with
      | .select ids => ids ≠ [] ∧ sel ≠ []
      | .filter _ _ => sel ≠ []
      | _ => True) ∧
    Admissible toInt d N (specStep toInt d N sel op).2 ops

end Postpic.Spec
