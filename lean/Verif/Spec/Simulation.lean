import Mathlib.Order.Defs.LinearOrder
import Mathlib.Algebra.Order.Ring.Int
import Verif.Model.Simulation

/-!
# Specification of sequences and of the choice of readers
-/

set_option autoImplicit false

namespace Postpic.Spec

open Postpic Postpic.Readers

/-- The place in a sequence of length `n` named by an integer: `0, ..., n-1` count from the
beginning, `-1, ..., -n` from the end. -/
def Place (n : ℕ) (i : ℤ) (k : ℕ) : Prop := k < n ∧ (i = k ∨ i = (k : ℤ) - n)

/-- The first limit of `[i:j:k]` (python library reference, "Common sequence operations", notes 4
and 5): relative to the end if negative, the nearest place if outside, the beginning (or the end if
the step is negative) if missing. -/
def firstLimit (n : ℕ) (step : ℤ) : Option ℤ → ℤ
  | none => if 0 < step then 0 else n - 1
  | some v =>
    let v := if v < 0 then v + n else v
    if 0 < step then max 0 (min n v) else max (-1) (min (n - 1) v)

/-- The second limit: the same, but if missing the end (or the place before the beginning). -/
def secondLimit (n : ℕ) (step : ℤ) : Option ℤ → ℤ
  | none => if 0 < step then n else -1
  | some v => firstLimit n step (some v)

/-- `x` is one of the places selected by `[i:j:k]`: `x = i + m k` for some `m ≥ 0`, and `x` has not
reached `j`. -/
def SlicePlace (i j k x : ℤ) : Prop :=
  ∃ m : ℕ, x = i + m * k ∧ if 0 < k then x < j else j < x

/-- The readers which belong to a name of a code (documentation of `chooseCode`, in lower case, and
the additional spellings it accepts), with the module they are found in. -/
def codeTable : List (String × String × String × String) :=
  [("dummy", "dummy", "Dummyreader", "Dummysim"),
   ("epoch", "epochsdf", "Sdfreader", "Visitreader"),
   ("epoch1d", "epochsdf", "Sdfreader", "Visitreader"),
   ("epoch2d", "epochsdf", "Sdfreader", "Visitreader"),
   ("epoch3d", "epochsdf", "Sdfreader", "Visitreader"),
   ("openpmd", "openPMDh5", "OpenPMDreader", "FileSeries"),
   ("openpmdh5", "openPMDh5", "OpenPMDreader", "FileSeries"),
   ("picongpu", "openPMDh5", "OpenPMDreader", "FileSeries"),
   ("fbpic", "openPMDh5", "FbpicReader", "FbpicFileSeries"),
   ("smilei", "smileih5", "SmileiReader", "SmileiSeries")]

/-- The name is `code` up to upper and lower case. -/
def SameName (s code : String) : Prop :=
  List.Forall₂ (fun a b => a.toLower = b.toLower) s.toList code.toList

instance (s code : String) : Decidable (SameName s code) := by
  unfold SameName
  infer_instance

/-- The entry of a name. -/
def codeOf (s : String) : Option (String × String × String × String) :=
  codeTable.find? fun e => decide (SameName s e.1)

/-- What a call is supposed to do to the choice of the dump reader: `some` new choice or nothing. -/
def dumpChoice (avail : String → Bool) : Call → Option Cls
  | .choose s => match codeOf s with
    | some e => if avail e.2.1 then some (.dump e.2.2.1) else none
    | none => none
  | .setDump (.dump n) => some (.dump n)
  | _ => none

/-- The same for the simulation reader. -/
def simChoice (avail : String → Bool) : Call → Option Cls
  | .choose s => match codeOf s with
    | some e => if avail e.2.1 then some (.sim e.2.2.2) else none
    | none => none
  | .setSim (.sim n) => some (.sim n)
  | _ => none

end Postpic.Spec
