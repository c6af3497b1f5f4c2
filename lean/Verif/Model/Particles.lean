import Mathlib.Data.Nat.Notation
import Verif.Py.Err

/-!
# Model of a single particle species and of collections of species

`postpic/particles/particles.py:60-334` (`_SingleSpecies`), `:337-680` (`MultiSpecies`).

Simplifications: the values are elements of a type `V` (conversion to float64 / int64 is the
identity, `toInt` reads an id); the log of filter names and the species names are not modelled.
Objects which python shares by reference (the `_SingleSpecies` objects in a shallow copy of a
collection) are values here; the theorems show that the only mutable part, the cache, does not
influence any result.
-/

set_option autoImplicit false

namespace Postpic.Particles

open Postpic

/-- `_atomicprops`. `particles.py:75`. -/
inductive Key where
  | weight | x | y | z | px | py | pz | mass | charge | id | time
  deriving DecidableEq, Repr

/-- `_atomicprops` in order. `particles.py:75`. -/
def Key.all : List Key := [.weight, .x, .y, .z, .px, .py, .pz, .mass, .charge, .id, .time]

/-- What the dumpreader returns for a property: one number for the species, or one per particle. -/
inductive Entry (V : Type) where
  | scalar (v : V)
  | array (l : List V)
  deriving DecidableEq

/-- A species of a dump: `dumpreader.getSpecies(species, key)` (`none` is KeyError),
`dumpreader.time()`, and what `identifyspecies(species)` says about mass and charge, or the exception
it raises. -/
structure Dump (V : Type) where
  get : Key → Option (Entry V)
  time : V
  deduce : Key → Res V

/-- A numpy array as it is handed out: shape `()`, shape `(n,)` or shape `(0, n)`, the latter being
the result of indexing with the zero dimensional boolean `False`. -/
inductive Arr (V : Type) where
  | scalar (v : V)
  | array (l : List V)
  | empty2 (n : ℕ)
  deriving DecidableEq

/-- `_compressboollist`: `None`, `np.asarray(False)` (zero dimensional), or a boolean array. -/
inductive Mask where
  | none
  | zero
  | bools (b : List Bool)
  deriving DecidableEq

/-- `_SingleSpecies`. `particles.py:78-97`. -/
structure SS (V : Type) where
  dump : Dump V
  mask : Mask
  cache : Key → Option (Arr V)

variable {V : Type}

/-- `_SingleSpecies(dumpreader, species)`. `particles.py:78-97`. -/
def fresh (d : Dump V) : SS V := ⟨d, .none, fun _ => none⟩

/-- The data source of a property. `particles.py:133-146`. -/
def fetch (d : Dump V) (k : Key) : Res (Entry V) :=
  match k with
  | .time => .ok (.scalar d.time)
  | .mass | .charge => match d.get k with
    | some e => .ok e
    | none => match d.deduce k with
      | .ok v => .ok (.scalar v)
      | .error e => .error e
  | k => match d.get k with
    | some e => .ok e
    | none => .error .keyError

/-- numpy boolean indexing `l[b]` for arrays of equal length. -/
def pick {α : Type} : List Bool → List α → List α
  | true :: b, a :: l => a :: pick b l
  | false :: b, _ :: l => pick b l
  | _, _ => []

/-- numpy boolean assignment `b[b] = c`, `c` of length `count_nonzero(b)`. -/
def assign : List Bool → List Bool → List Bool
  | true :: b, c :: cs => c :: assign b cs
  | true :: b, [] => true :: assign b []
  | false :: b, cs => false :: assign b cs
  | [], _ => []

/-- `ret[self._compressboollist]`; a boolean index of the wrong length is an IndexError. -/
def index (m : Mask) (l : List V) : Res (Arr V) :=
  match m with
  | .none => .ok (.array l)
  | .zero => .ok (.empty2 l.length)
  | .bools b => if b.length = l.length then .ok (.array (pick b l)) else .error .indexError

/-- Store in the cache. -/
def SS.put (s : SS V) (k : Key) (a : Arr V) : SS V :=
  { s with cache := fun k' => if k' = k then some a else s.cache k' }

/-- `_readatomic`. `particles.py:125-155`. Returns the result and the object afterwards. -/
def readAtomic (s : SS V) (k : Key) : Res (Arr V) × SS V :=
  match s.cache k with
  | some a => (.ok a, s)
  | none => match fetch s.dump k with
    | .error e => (.error e, s)
    | .ok (.scalar v) => (.ok (.scalar v), s.put k (.scalar v))
    | .ok (.array l) => match s.mask with
      | .none => (.ok (.array l), s)
      | m => match index m l with
        | .error e => (.error e, s)
        | .ok a => (.ok a, s.put k a)

/-- The search for a data set with a length in `__len__`. `particles.py:275-282`. -/
def lenLoop (s : SS V) : List Key → Res ℕ × SS V
  | [] => (.ok 0, s)
  | k :: ks => match readAtomic s k with
    | (.ok (.array l), s') => (.ok l.length, s')
    | (.ok (.empty2 _), s') => (.ok 0, s')
    | (.ok (.scalar _), s') => lenLoop s' ks
    | (.error .keyError, s') => lenLoop s' ks
    | (.error e, s') => (.error e, s')

/-- `__len__`. `particles.py:269-282`. -/
def len (s : SS V) : Res ℕ × SS V :=
  match s.mask with
  | .none => lenLoop s Key.all
  | .zero => (.ok 0, s)
  | .bools b => (.ok (b.count true), s)

/-- Filtering of one cached array, `particles.py:229-231`. -/
def filterCached (c : List Bool) : Arr V → Res (Arr V)
  | .scalar v => .ok (.scalar v)
  | .array l => if c.length = l.length then .ok (.array (pick c l)) else .error .indexError
  | .empty2 n => if c.length = 0 then .ok (.empty2 n) else .error .indexError

/-- Filtering of the whole cache. -/
def filterCache (c : List Bool) (cache : Key → Option (Arr V)) :
    List Key → Res (Key → Option (Arr V))
  | [] => .ok cache
  | k :: ks => match cache k with
    | none => filterCache c cache ks
    | some a => do
      let a' ← filterCached c a
      filterCache c (fun k' => if k' = k then some a' else cache k') ks

/-- `ret._compressboollist = condition` or `ret._compressboollist[ret._compressboollist] =
condition`. `particles.py:225-228`. -/
def newMask (m : Mask) (c : List Bool) : Mask :=
  match m with
  | .none => .bools c
  | .zero => .zero
  | .bools b => .bools (assign b c)

/-- `_compress_bool`. `particles.py:219-232`. Returns the new object and `self` afterwards. -/
def compressBool (s : SS V) (c : List Bool) : Res (SS V) × SS V :=
  match len s with
  | (.error e, s') => (.error e, s')
  | (.ok n, s') =>
    if n ≠ c.length then (.error .valueError, s') else
      let mask := newMask s'.mask c
      (match filterCache c s'.cache Key.all with
        | .error e => .error e
        | .ok cache => .ok { s' with mask := mask, cache := cache }, s')

/-- `np.searchsorted(a, v)` (left) for sorted `a`: number of leading elements less than `v`. -/
def searchsorted (a : List Int) (v : Int) : ℕ := (a.takeWhile (· < v)).length

/-- `condition.sort()`. -/
def sortIds (l : List Int) : List Int := l.mergeSort (fun a b => decide (a ≤ b))

/-- One entry of `bools`: `idx[idx == len(condition)] = 0; condition[idx] == ids`. IndexError for
an empty condition. `particles.py:241-243`. -/
def idTest (sorted : List Int) (v : Int) : Res Bool :=
  let i := searchsorted sorted v
  let i := if i = sorted.length then 0 else i
  match sorted[i]? with
  | none => .error .indexError
  | some w => .ok (decide (w = v))

/-- `_compress_int`. `particles.py:234-244`. For ids of shape `()` the item assignment is a
TypeError; for shape `(0, n)` the assignment in `_compress_bool` is a ValueError. -/
def compressInt (toInt : V → Int) (s : SS V) (condition : List Int) : Res (SS V) × SS V :=
  let sorted := sortIds condition
  match readAtomic s .id with
  | (.error e, s') => (.error e, s')
  | (.ok (.scalar _), s') => (.error .typeError, s')
  | (.ok (.empty2 _), s') => (.error .valueError, s')
  | (.ok (.array l), s') => match l.mapM fun v => idTest sorted (toInt v) with
    | .error e => (.error e, s')
    | .ok bools => compressBool s' bools

/-- `uncompress`. `particles.py:246-250`. -/
def uncompress (s : SS V) : SS V := fresh s.dump

/-- `__invert__`. `particles.py:252-264`. -/
def invert (s : SS V) : SS V :=
  { s with
    cache := fun _ => none
    mask := match s.mask with
      | .none => .zero
      | .zero => .none
      | .bools b => .bools (b.map (!·)) }

/-- `filter` for the condition that a property `k` satisfies `p` (`self(condition)` is an
elementwise expression). `particles.py:157-172`. A condition on a single number of the species is
a zero dimensional boolean, `len()` of which is a TypeError. -/
def filterBy (s : SS V) (k : Key) (p : V → Bool) : Res (SS V) × SS V :=
  match readAtomic s k with
  | (.error e, s') => (.error e, s')
  | (.ok (.scalar _), s') => (.error .typeError, s')
  | (.ok (.array l), s') => compressBool s' (l.map p)
  | (.ok (.empty2 _), s') => (.error .valueError, s')

/-! ### Collections -/

/-- `MultiSpecies._ssas`. -/
abbrev MS (V : Type) := List (SS V)

/-- `ssdata`: single numbers are repeated for each particle. `particles.py:663-668`. -/
def ssdata (s : SS V) (k : Key) : Res (Arr V) × SS V :=
  match readAtomic s k with
  | (.ok (.scalar v), s') => match len s' with
    | (.ok n, s'') => (.ok (.array (List.replicate n v)), s'')
    | (.error e, s'') => (.error e, s'')
  | r => r

/-- The data of all species. -/
def msData (ms : MS V) (k : Key) : Res (List (Arr V)) :=
  ms.mapM fun s => (ssdata s k).1

/-- `np.hstack` of a list of 1D arrays, or of 2D arrays; a mixture is a ValueError. -/
def hstack : List (Arr V) → Res (Arr V)
  | [] => .ok (.array [])
  | [a] => .ok a
  | .array l :: rest => do
    match ← hstack rest with
    | .array m => return .array (l ++ m)
    | _ => .error .valueError
  | .empty2 n :: rest => do
    match ← hstack rest with
    | .empty2 m => return .empty2 (n + m)
    | _ => .error .valueError
  | .scalar _ :: _ => .error .valueError

/-- `__call_sp` for an atomic property. `particles.py:661-674`. -/
def msRead (ms : MS V) (k : Key) : Res (Arr V) :=
  if ms.isEmpty then .ok (.array []) else do hstack (← msData ms k)

/-- `npart` / `__len__`. `particles.py:417-425`. -/
def msLen (ms : MS V) : Res ℕ := do
  let ns ← ms.mapM fun s => (len s).1
  return ns.sum

/-- `__add__`. `particles.py:520-533`. -/
def msAdd (p q : MS V) : MS V := p ++ q

/-- `compress` with a boolean condition. `particles.py:571-583`. `i` is the offset. -/
def msCompressBool (c : List Bool) : ℕ → MS V → Res (MS V)
  | _, [] => .ok []
  | i, s :: rest => do
    let n ← (len s).1
    let s' ← (compressBool (len s).2 ((c.drop i).take n)).1
    let rest' ← msCompressBool c (i + n) rest
    return s' :: rest'

/-- `compress` with ids. `particles.py:580-581`. -/
def msCompressInt (toInt : V → Int) (ids : List Int) (ms : MS V) : Res (MS V) :=
  ms.mapM fun s => (compressInt toInt s ids).1

/-- One round of `for ssa in other._ssas: self._ssas.append(copy.copy(ssa))` where `other` is
`self` (`p += p`): the iterator position and the list. `particles.py:553-555`. -/
def iaddSelfStep (st : ℕ × MS V) : Option (ℕ × MS V) :=
  match st.2[st.1]? with
  | none => none
  | some ssa => some (st.1 + 1, st.2 ++ [ssa])

/-- `p += q` for different objects. -/
def iadd (p q : MS V) : MS V := q.foldl (fun acc ssa => acc ++ [ssa]) p

end Postpic.Particles
