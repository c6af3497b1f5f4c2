import Verif.Model.Particles

/-!
# Model of id selection with its effect on the caller's array, and of `ParticleHistory`

`postpic/particles/particles.py:234-244, 571-583, 1169-1281`.

Simplifications: a dump is the list of its particles (of all the species asked for, concatenated),
each with its id and with the tuple of the requested scalars. `skip` hands out the values of the
strided view (not the view itself).
-/

set_option autoImplicit false

namespace Postpic.Particles

open Postpic

/-- What the caller passes as list of ids: an integer numpy array is used without copying by
`np.asarray(condition, dtype='int')`, everything else (list, tuple) is copied. -/
inductive IdArg where
  | intArray (ids : List Int)
  | other (ids : List Int)
  deriving DecidableEq

/-- The ids. -/
def IdArg.ids : IdArg → List Int
  | .intArray l => l
  | .other l => l

/-- The caller's object after `_compress_int`: `condition.sort()` sorts in place.
`particles.py:235-239`. -/
def argAfterSelect : IdArg → IdArg
  | .intArray l => .intArray (sortIds l)
  | .other l => .other l

/-- A dump: ids and scalars of all particles. -/
abbrev PDump (V : Type) := List (Int × V)

/-- `ParticleHistory`: the array `ids` and the dictionary `_id2i`. -/
structure History where
  ids : List Int
  id2i : Int → Option ℕ

/-- `_updatelookupdict`: `{self.ids[i]: i for i in range(len(self.ids))}`; later entries overwrite
earlier ones. `particles.py:1210-1216`. -/
def lookupDict (ids : List Int) : Int → Option ℕ :=
  ids.zipIdx.foldl (fun d p => fun k => if k = p.1 then some p.2 else d k) (fun _ => none)

/-- `ParticleHistory(sr, speciess, ids)`. `particles.py:1187-1197`. -/
def History.new (ids : List Int) : History := ⟨ids, lookupDict ids⟩

variable {V : Type}

/-- `ms.compress(self.ids)` followed by reading. `particles.py:1233-1248`. -/
def selectDump (ids : List Int) (d : PDump V) : Res (PDump V) := do
  let bools ← d.mapM fun p => idTest (sortIds ids) p.1
  return pick bools d

/-- The loop over the particles of one dump. `particles.py:1277-1279`. -/
def appendAll (id2i : Int → Option ℕ) : PDump V → List (List V) → Res (List (List V))
  | [], acc => .ok acc
  | (i, v) :: rest, acc => match id2i i with
    | none => .error .keyError
    | some j => if j < acc.length then appendAll id2i rest (acc.modify j (· ++ [v]))
      else .error .indexError

/-- The loop over the dumps. `particles.py:1275-1279`. The ids are sorted in place. -/
def collectLoop (id2i : Int → Option ℕ) : List (PDump V) → List Int → List (List V) →
    Res (List (List V)) × List Int
  | [], ids, acc => (.ok acc, ids)
  | d :: ds, ids, acc => match selectDump ids d with
    | .error e => (.error e, sortIds ids)
    | .ok sel => match appendAll id2i sel acc with
      | .error e => (.error e, sortIds ids)
      | .ok acc' => collectLoop id2i ds (sortIds ids) acc'

/-- `collect`. `particles.py:1259-1281`. Returns the result and the object afterwards. -/
def History.collect (h : History) (ds : List (PDump V)) : Res (List (List V)) × History :=
  match collectLoop h.id2i ds h.ids (List.replicate h.ids.length []) with
  | (r, ids) => (r, { h with ids := ids })

/-- `a[::n+1]`. -/
def stride {α : Type} (n : ℕ) : List α → List α
  | [] => []
  | a :: l => a :: stride n (l.drop n)
termination_by l => l.length
decreasing_by simp; omega

/-- `skip`. `particles.py:1250-1257`. -/
def History.skip (h : History) (n : ℕ) : History := History.new (stride n h.ids)

end Postpic.Particles
