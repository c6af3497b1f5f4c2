import Verif.Model.Autocut
import Verif.Spec.FieldIndex

/-!
# Specification: cutting out the main feature
-/

set_option autoImplicit false

namespace Postpic.Spec

open Postpic Postpic.Axes Postpic.Fields

/-- The index in a field that belongs to an index of the field without dimensions of length one. -/
def unsqueeze : List ℕ → List ℕ → List ℕ
  | [], _ => []
  | n :: shape, idx =>
    if n = 1 then 0 :: unsqueeze shape idx else idx.headD 0 :: unsqueeze shape idx.tail

section
variable {K V : Type} [_root_.Field K]

/-- The mean of the absolute values over all samples with position `j` in dimension `d`, for arrays
with one or two dimensions. -/
def projection (absV : V → K) (a : Arr V) (d j : ℕ) : K :=
  match a.shape, d with
  | [_, n], 0 => ((List.range n).map fun i => absV (a.at' [j, i])).sum / (n : K)
  | [n, _], 1 => ((List.range n).map fun i => absV (a.at' [i, j])).sum / (n : K)
  | _, _ => absV (a.at' [j])

end

end Postpic.Spec
