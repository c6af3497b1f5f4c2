import Mathlib.Analysis.SpecialFunctions.Trigonometric.Basic
import Mathlib.Data.List.Sort
import Verif.Py.Err
import Verif.Py.Slice
import Verif.Py.NdArray

/-!
# Replacements for functions of numpy and scipy

Model of `postpic/_compat/functions.py`: `np_moveaxis` and `sps_tukey`.
-/

set_option autoImplicit false

namespace Postpic.Compat

open Postpic

/-- `l.insert(i, v)` for `i ≥ 0`: numbers beyond the end insert at the end. -/
def pyInsert {α : Type} (l : List α) (i : ℕ) (v : α) : List α := l.insertIdx (min i l.length) v

/-- Python's order of pairs, which `sorted` uses. -/
def pairLe (p q : ℕ × ℕ) : Prop := p.1 < q.1 ∨ (p.1 = q.1 ∧ p.2 ≤ q.2)

instance (p q : ℕ × ℕ) : Decidable (pairLe p q) :=
  inferInstanceAs (Decidable (p.1 < q.1 ∨ (p.1 = q.1 ∧ p.2 ≤ q.2)))

/-- The list `order` in `np_moveaxis`, for an array with `n` dimensions; `s % 0` raises.
`_compat/functions.py:58-68`. -/
def moveaxisOrder (n : ℕ) (source destination : List ℤ) : Res (List ℕ) :=
  if n = 0 ∧ (source ≠ [] ∨ destination ≠ []) then .error .zeroDivisionError else
    let source := source.map fun (s : ℤ) => (s % (n : ℤ)).toNat
    let destination := destination.map fun (d : ℤ) => (d % (n : ℤ)).toNat
    let order := (List.range n).filter fun i => decide (i ∉ source)
    .ok (((destination.zip source).insertionSort pairLe).foldl
      (fun l p => pyInsert l p.1 p.2) order)

/-- `np_moveaxis(a, source, destination)`; `np.transpose` refuses lists that are not permutations.
`_compat/functions.py:54-70`. -/
def moveaxis {V : Type} (a : Arr V) (source destination : List ℤ) : Res (Arr V) := do
  let order ← moveaxisOrder a.shape.length source destination
  if order.length = a.shape.length ∧ order.Nodup ∧ ∀ i ∈ order, i < a.shape.length then
    return a.transpose order
  else throw .valueError

/-- The rising edge at position `n`. `_compat/functions.py:97`. -/
noncomputable def tukeyRise (alpha : ℝ) (M n : ℕ) : ℝ :=
  1 / 2 * (1 + Real.cos (Real.pi * (-1 + 2 * n / alpha / ((M : ℝ) - 1))))

/-- The falling edge at position `n`. `_compat/functions.py:99`. -/
noncomputable def tukeyFall (alpha : ℝ) (M n : ℕ) : ℝ :=
  1 / 2 * (1 + Real.cos (Real.pi * (-2 / alpha + 1 + 2 * n / alpha / ((M : ℝ) - 1))))

/-- The symmetric window with `M` points. `_compat/functions.py:91-101`. -/
noncomputable def tukeyWindow (M : ℕ) (alpha : ℝ) : List ℝ :=
  let n := List.range M
  let width : ℤ := ⌊alpha * ((M : ℝ) - 1) / 2⌋
  let n1 := sliceFwd n (some 0) (some (width + 1))
  let n2 := sliceFwd n (some (width + 1)) (some ((M : ℤ) - width - 1))
  let n3 := sliceFwd n (some ((M : ℤ) - width - 1)) none
  n1.map (tukeyRise alpha M) ++ n2.map (fun _ => 1) ++ n3.map (tukeyFall alpha M)

/-- `sps_tukey(M, alpha, sym)` for integers `M`. For `alpha >= 1` the code calls the undefined
function `hann`. `_compat/functions.py:73-106`. -/
noncomputable def tukey (M : ℤ) (alpha : ℝ) (sym : Bool := true) : Res (List ℝ) :=
  if M < 0 then .error .valueError
  else if M ≤ 1 then .ok (List.replicate M.toNat 1)
  else if alpha ≤ 0 then .ok (List.replicate M.toNat 1)
  else if 1 ≤ alpha then .error .nameError
  else if sym then .ok (tukeyWindow M.toNat alpha)
  else .ok (sliceFwd (tukeyWindow (M.toNat + 1) alpha) none (some (-1)))

end Postpic.Compat
