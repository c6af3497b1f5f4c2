import Mathlib.Analysis.SpecialFunctions.Trigonometric.Basic
import Mathlib.Algebra.BigOperators.Intervals
import Verif.Py.NdArray

/-!
# Model of the expansion of azimuthal modes

`FbpicReader` in `postpic/datareader/openPMDh5.py` and `SmileiReader` in `postpic/datareader/smileih5.py`.
-/

set_option autoImplicit false

noncomputable section

namespace Postpic.Readers

open Postpic

/-! ### fbpic -/

/-- The shape of the data: modes, radius, z. `openPMDh5.py:222, 236, 274`. -/
def unpack3 : List ℕ → Res (ℕ × ℕ × ℕ)
  | [a, b, c] => .ok (a, b, c)
  | _ => .error .valueError

/-- `mult_above_axis`. `openPMDh5.py:237-242`. -/
def fbpicFactors (nm : ℕ) (theta : ℝ) : List ℝ :=
  1 :: (List.range' 1 ((nm + 1) / 2 - 1)).flatMap fun (mode : ℕ) =>
    [Real.cos (mode * theta), Real.sin (mode * theta)]

/-- `_modeexpansion_naiv_single`. `np.tensordot` needs equal lengths. `openPMDh5.py:229-250`. -/
def fbpicSingle (raw : Arr ℝ) (theta : ℝ) : Res (Arr ℝ) := do
  let (nm, nr, nz) ← unpack3 raw.shape
  let factors := fbpicFactors nm theta
  if factors.length ≠ nm then throw .valueError
  return ⟨[nr, nz], fun idx => (factors.zipIdx.map fun p => p.1 * raw.at' (p.2 :: idx)).sum⟩

/-- `_modeexpansion_naiv`; a single angle is treated as a list with one angle. If there are none, `swapaxes` finds no
second dimension. `openPMDh5.py:253-266`. -/
def fbpicNaive (raw : Arr ℝ) (thetas : List ℝ) : Res (Arr ℝ) := do
  let l ← thetas.mapM (fbpicSingle raw)
  match l with
  | [] => throw .indexError
  | a :: _ => return ⟨[a.shape.getD 0 0, l.length, a.shape.getD 1 0], fun idx =>
      ((l[idx.getD 1 0]?).getD a).at' [idx.getD 0 0, idx.getD 2 0]⟩

/-- The number of angles. `openPMDh5.py:275-277`. -/
def fbpicNtheta (nm : ℕ) (ntheta : Option ℤ) : ℕ :=
  match ntheta with
  | none => (nm + 1) / 2
  | some m => if m < ((nm + 1) / 2 : ℕ) then (nm + 1) / 2 else m.toNat

/-- An array of length `a` can be assigned to a slice of length `b`. -/
def assignable (a b : ℕ) : Bool := a = b || a = 1

/-- The coefficients after the assignments; `junk` is the content of the memory `np.empty` returns.
`openPMDh5.py:278-283`. -/
def fbpicCoeff (raw : ℕ → ℕ → ℕ → ℝ) (junk : ℕ → ℕ → ℕ → ℂ) (nth : ℕ) (r k z : ℕ) : ℂ :=
  if k = 0 then ⟨raw 0 r z, (junk r 0 z).im⟩
  else if k < nth then ⟨raw (2 * k - 1) r z, raw (2 * k) r z⟩
  else junk r k z

/-- `_modeexpansion_fft`. `np.fft.fft` has no normalisation. `openPMDh5.py:269-286`. -/
def fbpicFft (junk : ℕ → ℕ → ℕ → ℂ) (raw : Arr ℝ) (ntheta : Option ℤ) : Res (Arr ℝ) := do
  let (nm, nr, nz) ← unpack3 raw.shape
  let nth := (nm + 1) / 2
  let n := fbpicNtheta nm ntheta
  if nm = 0 then throw .indexError
  if !assignable (nm / 2) (nth - 1) then throw .valueError
  if !assignable ((nm - 1) / 2) (nth - 1) then throw .valueError
  return ⟨[nr, n, nz], fun idx =>
    (∑ k ∈ Finset.range n,
      fbpicCoeff (fun m r z => raw.at' [m, r, z]) junk nth (idx.getD 0 0) k (idx.getD 2 0) *
        Complex.exp (-(2 * Real.pi * Complex.I * (idx.getD 1 0 : ℕ) * k / n))).re⟩

/-- `modeexpansion(rawdata, theta, Ntheta)`. `openPMDh5.py:210-226`. -/
def fbpicExpansion (junk : ℕ → ℕ → ℕ → ℂ) (raw : Arr ℝ) (thetas : Option (List ℝ)) (ntheta : Option ℤ) :
    Res (Arr ℝ) := do
  let _ ← unpack3 raw.shape
  match thetas, ntheta with
  | none, _ => fbpicFft junk raw ntheta
  | _, some _ => fbpicFft junk raw ntheta
  | some t, none => fbpicNaive raw t

/-! ### Smilei -/

/-- The loop over the angles: the array is changed in place and put in the list once per angle.
`smileih5.py:158-164`. Returns the final content of the array. -/
def smileiLoop (nm : ℕ) (raw : ℕ → List ℕ → ℂ) : List ℝ → (List ℕ → ℝ) → List ℕ → ℝ
  | [], total => total
  | t :: ts, total => smileiLoop nm raw ts fun idx =>
      (List.range nm).foldl (fun F m => F + ((raw m idx).re * Real.cos (m * t) + (raw m idx).im * Real.sin (m * t)))
        (total idx)

/-- `_modeexpansion_naiv`. All entries of the list are the same array. `np.stack` needs at least one. `nm` is the number
of modes and `raw` the data of each. `smileih5.py:135-167`. -/
def smileiNaive (nm nx nr : ℕ) (raw : ℕ → List ℕ → ℂ) (thetas : List ℝ) : Res (Arr ℝ) :=
  if thetas = [] then .error .valueError
  else
    let total := smileiLoop nm raw thetas fun _ => 0
    .ok ⟨[thetas.length, nx, nr], fun idx => total idx.tail⟩

/-- The fields of a dump which are given by modes: name and mode number. In the dump they are called
`<name>_mode_<number>`; splitting these names is not modelled. -/
abbrev ModeNames := List (String × ℕ)

/-- The largest mode number, found as in the loop. `smileih5.py:186-192`. -/
def maxMode : ModeNames → Option ℕ
  | [] => none
  | p :: l => match maxMode l with
    | none => some p.2
    | some m => some (max p.2 m)

/-- `_listAMmodes`: the names of the fields and the numbers of the modes. The last character of the name with the
largest number is the last digit of this number. `smileih5.py:171-197`. -/
def listAMmodes (names : ModeNames) : List String × List ℕ :=
  match maxMode names with
  | none => ([], [])
  | some m => (names.map (·.1), List.range (m % 10 + 1))

/-- One mode of a field as complex numbers: the second dimension contains real and imaginary parts in turn; envelopes
are real. `smileih5.py:217-227`. -/
def smileiComplex (env : Bool) (a : Arr ℝ) : Res (Arr ℂ) :=
  match a.shape with
  | [nx, n] =>
    if env then .ok ⟨[nx, n], fun idx => ⟨a.at' idx, 0⟩⟩
    else if n % 2 ≠ 0 then .error .valueError
    else .ok ⟨[nx, n / 2], fun idx =>
      ⟨a.at' [idx.getD 0 0, 2 * idx.getD 1 0], a.at' [idx.getD 0 0, 2 * idx.getD 1 0 + 1]⟩⟩
  | _ => .error .indexError

/-- The modes of a field, one after the other; `dump key m` is the dataset `<key>_mode_<m>`. -/
def smileiModes (dump : String → ℕ → Option (Arr ℝ)) (key : String) (m : ℕ) : Res (Arr ℂ) :=
  match dump key m with
  | none => .error .keyError
  | some a => smileiComplex (key.startsWith "Env_") a

/-- `_getExpanded`; `unit` is the factor `unitSI` of mode 0. `smileih5.py:201-232`. -/
def smileiExpanded (names : ModeNames) (dump : String → ℕ → Option (Arr ℝ)) (unit : String → ℝ) (key : String)
    (thetas : List ℝ) : Res (Arr ℝ) := do
  let l ← (listAMmodes names).2.mapM (smileiModes dump key)
  match l with
  | [] => throw .valueError
  | a :: _ =>
    if ¬ (∀ b ∈ l, b.shape = a.shape) then throw .valueError
    match a.shape with
    | [nx, nr] => do
      let r ← smileiNaive l.length nx nr (fun m => ((l[m]?).getD a).at') thetas
      return ⟨r.shape, fun idx => r.at' idx * unit key⟩
    | _ => throw .valueError

end Postpic.Readers
