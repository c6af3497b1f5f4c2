import Verif.Model.Particles

/-!
# Model of conditions which are numpy arrays of the user

`compress` of `MultiSpecies` and `_SingleSpecies` (`postpic/particles/particles.py:205-244`, `:570-583`) does not copy its argument
if it is an array of the right type: the selection of a species can be a part of the array of the user.
-/

set_option autoImplicit false

namespace Postpic.Particles

open Postpic

variable {V : Type}

/-- The arrays of the user by address: booleans and 64 bit integers. -/
structure Store where
  bools : ℕ → List Bool
  ints : ℕ → List Int

/-- `_compressboollist` with sharing: an own array, or the part `[start:start+n]` of the boolean array at an address. -/
inductive MaskRef where
  | none
  | zero
  | own (b : List Bool)
  | view (address start n : ℕ)

/-- `_SingleSpecies`. -/
structure RefSS (V : Type) where
  dump : Dump V
  mask : MaskRef
  cache : Key → Option (Arr V)

/-- The values of a selection. -/
def MaskRef.resolve (σ : Store) : MaskRef → Mask
  | .none => .none
  | .zero => .zero
  | .own b => .bools b
  | .view a i n => .bools (((σ.bools a).drop i).take n)

/-- The species with the values of its selection. -/
def RefSS.resolve (σ : Store) (s : RefSS V) : SS V := ⟨s.dump, s.mask.resolve σ, s.cache⟩

/-- `ret._compressboollist = condition`, where `condition` is a part of an array of the user, or the assignment to the entries of a copy
(`__copy__`). `particles.py:224-228`, `:99-111`. -/
def MaskRef.update (σ : Store) (m : MaskRef) (address start n : ℕ) : MaskRef :=
  match m with
  | .none => .view address start n
  | .zero => .zero
  | .own b => .own (assign b (((σ.bools address).drop start).take n))
  | .view a i k => .own (assign (((σ.bools a).drop i).take k) (((σ.bools address).drop start).take n))

/-- `_compress_bool` with the part `[start:start+n]` of an array. `particles.py:219-232`. The cache of the result is that of
`compressBool`. -/
def compressRef (σ : Store) (s : RefSS V) (address start n : ℕ) : Res (RefSS V) := do
  let t ← (compressBool (s.resolve σ) (((σ.bools address).drop start).take n)).1
  return ⟨s.dump, s.mask.update σ address start n, t.cache⟩

/-- `MultiSpecies.compress(condition)` for a boolean array at an address. `particles.py:570-583`. -/
def msCompressRef (σ : Store) (address : ℕ) : ℕ → List (RefSS V) → Res (List (RefSS V))
  | _, [] => .ok []
  | i, s :: rest => do
    let n ← (len (s.resolve σ)).1
    let s' ← compressRef σ { s with cache := (len (s.resolve σ)).2.cache } address i n
    let rest' ← msCompressRef σ address (i + n) rest
    return s' :: rest'

/-- `MultiSpecies.compress(condition)` for an array of 64 bit integers at an address: `np.asarray(condition, dtype='int')` is the
array itself, which is then sorted in place (for the first species; afterwards it is sorted already). The selections are new arrays,
so that they are given as values. Returns the store after the call. `particles.py:234-244`. -/
def msSelectRef (toInt : V → Int) (σ : Store) (address : ℕ) (ms : MS V) : Res (MS V) × Store :=
  (msCompressInt toInt (σ.ints address) ms,
    if ms.isEmpty then σ else { σ with ints := fun a => if a = address then sortIds (σ.ints a) else σ.ints a })

end Postpic.Particles
