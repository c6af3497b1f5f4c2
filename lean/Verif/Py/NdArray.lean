import Mathlib.Data.Nat.Notation
import Mathlib.Data.Int.Notation
import Verif.Py.Err

/-!
# N-dimensional arrays

An array is a shape and a function from indices (one number per dimension). Only the values at
indices within bounds matter: `Arr.Eqv` compares arrays by shape and these values. The functions
are numpy's, described as in numpy's documentation.
-/

set_option autoImplicit false

namespace Postpic

/-- An array. -/
structure Arr (V : Type) where
  shape : List ℕ
  at' : List ℕ → V

/-- The index is within the shape: one number per dimension, each smaller than the length. -/
def InBounds (shape idx : List ℕ) : Prop :=
  idx.length = shape.length ∧ ∀ (d i n : ℕ), idx[d]? = some i → shape[d]? = some n → i < n

/-- Equal shapes and equal values. -/
def Arr.Eqv {V : Type} (a b : Arr V) : Prop :=
  a.shape = b.shape ∧ ∀ idx, InBounds a.shape idx → a.at' idx = b.at' idx

/-- A python index into a sequence of length `n`; negative numbers count from the end. -/
def pyIdx (n : ℕ) (i : ℤ) : Option ℕ :=
  if 0 ≤ i then (if i < n then some i.toNat else none)
  else if -(n : ℤ) ≤ i then some (i + n).toNat else none

/-- The number of a dimension of an array with `n` dimensions, or numpy's `AxisError` (a subclass
of `IndexError`). -/
def axisIdx (n : ℕ) (i : ℤ) : Res ℕ :=
  match pyIdx n i with
  | some k => .ok k
  | none => .error .indexError

/-- `del l[i]`. -/
def pyDel {α : Type} (l : List α) (i : ℤ) : Res (List α) :=
  match pyIdx l.length i with
  | some k => .ok (l.eraseIdx k)
  | none => .error .indexError

/-- `l[i] = v`. -/
def pySet {α : Type} (l : List α) (i : ℤ) (v : α) : Res (List α) :=
  match pyIdx l.length i with
  | some k => .ok (l.set k v)
  | none => .error .indexError

/-- `l[i]`. -/
def pyGet {α : Type} (l : List α) (i : ℤ) : Res α :=
  match pyIdx l.length i with
  | some k => match l[k]? with
    | some v => .ok v
    | none => .error .indexError
  | none => .error .indexError

/-- `a.transpose(perm)`: dimension `i` of the result is dimension `perm[i]` of `a`. -/
def Arr.transpose {V : Type} (a : Arr V) (perm : List ℕ) : Arr V where
  shape := perm.map fun j => a.shape.getD j 0
  at' idx := a.at' ((List.range a.shape.length).map fun j => idx.getD (perm.idxOf j) 0)

/-- `np.flip(a, axis)`. -/
def Arr.flip {V : Type} (a : Arr V) (axis : ℕ) : Arr V where
  shape := a.shape
  at' idx := a.at' (idx.modify axis fun k => a.shape.getD axis 0 - 1 - k)

/-- Positions selected along the dimensions: a single one (the dimension is removed) or a list. -/
inductive Pick where
  | one (k : ℕ)
  | many (l : List ℕ)

/-- The shape after selecting. -/
def pickShape : List Pick → List ℕ
  | [] => []
  | .one _ :: ps => pickShape ps
  | .many l :: ps => l.length :: pickShape ps

/-- The index in the original array. -/
def pickIdx : List Pick → List ℕ → List ℕ
  | [], _ => []
  | .one k :: ps, idx => k :: pickIdx ps idx
  | .many l :: ps, idx => l.getD (idx.headD 0) 0 :: pickIdx ps idx.tail

/-- `a[slices]` with one entry per dimension. -/
def Arr.pick {V : Type} (a : Arr V) (ps : List Pick) : Arr V where
  shape := pickShape ps
  at' idx := a.at' (pickIdx ps idx)

/-- All indices which agree with `idx` in the dimensions that are not selected; the last dimension
runs fastest. -/
def fibre : List ℕ → List Bool → List ℕ → List (List ℕ)
  | n :: shape, true :: sel, idx =>
    (List.range n).flatMap fun k => (fibre shape sel idx).map (k :: ·)
  | _ :: shape, false :: sel, idx => (fibre shape sel idx.tail).map (idx.headD 0 :: ·)
  | _, _, _ => [[]]

/-- The entries whose flag is not set. -/
def keep {α : Type} : List Bool → List α → List α
  | true :: sel, _ :: l => keep sel l
  | false :: sel, a :: l => a :: keep sel l
  | _, _ => []

/-- `np.<method>(a, axis=...)` for the flagged dimensions; `red` is the method for lists. -/
def Arr.reduce {V : Type} (red : List V → V) (a : Arr V) (sel : List Bool) : Arr V where
  shape := keep sel a.shape
  at' idx := red ((fibre a.shape sel idx).map a.at')

/-- The same with `keepdims=True`. -/
def Arr.reduceKeep {V : Type} (red : List V → V) (a : Arr V) (sel : List Bool) : Arr V where
  shape := List.zipWith (fun s n => if s then 1 else n) sel a.shape
  at' idx := red ((fibre a.shape sel (keep sel idx)).map a.at')

/-- numpy's broadcasting of two shapes, both given from the last dimension on. -/
def bshapeRev : List ℕ → List ℕ → Option (List ℕ)
  | [], t => some t
  | s, [] => some s
  | a :: s, b :: t =>
    match bshapeRev s t with
    | none => none
    | some r =>
      if a = b then some (a :: r) else if a = 1 then some (b :: r)
      else if b = 1 then some (a :: r) else none

/-- numpy's broadcast shape. -/
def bshape (s t : List ℕ) : Option (List ℕ) := (bshapeRev s.reverse t.reverse).map List.reverse

/-- The index used in an operand which is broadcast. -/
def bindex (shape idx : List ℕ) : List ℕ :=
  List.zipWith (fun n i => if n = 1 then 0 else i) shape (idx.drop (idx.length - shape.length))

/-- A binary ufunc. -/
def Arr.binary {V : Type} (g : V → V → V) (a b : Arr V) : Res (Arr V) :=
  match bshape a.shape b.shape with
  | some s => .ok ⟨s, fun idx => g (a.at' (bindex a.shape idx)) (b.at' (bindex b.shape idx))⟩
  | none => .error .valueError

/-- `np.pad(a, widths, 'constant', constant_values=c)`. -/
def Arr.pad {V : Type} (a : Arr V) (w : List (ℕ × ℕ)) (c : V) : Arr V where
  shape := List.zipWith (fun n p => p.1 + n + p.2) a.shape w
  at' idx :=
    if (List.zip idx (List.zip w a.shape)).all
        (fun q => decide (q.2.1.1 ≤ q.1 ∧ q.1 < q.2.1.1 + q.2.2))
    then a.at' (List.zipWith (fun i p => i - p.1) idx w) else c

end Postpic
