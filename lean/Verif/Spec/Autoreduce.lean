import Mathlib.Algebra.Module.Basic
import Mathlib.Algebra.BigOperators.Group.Finset.Basic
import Mathlib.Data.Nat.Find
import Verif.Spec.FieldResolution

/-!
# Specification: reducing the resolution until no axis is too long
-/

set_option autoImplicit false

namespace Postpic.Spec

open Postpic Postpic.Axes Postpic.Fields

/-- How often `n` is halved (rounding down) until at most `m` is left. -/
def halvings (m n : ℕ) : ℕ :=
  Nat.find (p := fun k => n / 2 ^ k ≤ m) ⟨n, by simp [Nat.div_eq_of_lt n.lt_two_pow_self]⟩

section
variable {K V : Type} [_root_.Field K] [LinearOrder K] [AddCommGroup V] [Module K V]

variable (K) in
/-- The means over blocks of `2^k` positions along the dimension `d`. -/
def blockMean (d k : ℕ) (g : List ℕ → V) : List ℕ → V :=
  fun idx => (1 / 2 ^ k : K) • ∑ o ∈ Finset.range (2 ^ k), g (idx.modify d fun i => 2 ^ k * i + o)

/-- The axis `ax'` consists of the cells of `ax` joined in blocks of `2^k`; cells at the end which do not make up a block are
left out. -/
structure JoinedAxis (k : ℕ) (ax ax' : Axis K) : Prop where
  len : ax'.len = ax.len / 2 ^ k
  nodes : ∀ i, i ≤ ax'.len → ax'.gridNode[i]? = ax.gridNode[2 ^ k * i]?
  even : ∀ e h : K, EvenAxis ax e h → EvenAxis ax' e (2 ^ k * h)
  name : ax'.name = ax.name
  unit : ax'.unit = ax.unit

/-- The field `r` is `f` with its cells joined in blocks, so that no axis has more than `m` points: each axis is halved as often
as necessary but not more often, and the values are the means over the blocks, along the first dimension, then the second one and
so on. -/
structure Reduced (m : ℕ) (f r : Field K V) : Prop where
  shape : r.shape = f.shape.map fun n => n / 2 ^ halvings m n
  dims : r.axes.length = f.axes.length
  axes : ∀ (d : ℕ) (ax : Axis K), f.axes[d]? = some ax → ∃ ax', r.axes[d]? = some ax' ∧ JoinedAxis (halvings m ax.len) ax ax'
  values : r.matrix.at' =
    (List.range f.shape.length).foldl (fun g d => blockMean K d (halvings m (f.shape.getD d 0)) g) f.matrix.at'
  states : r.ats = f.ats
  name : r.name = f.name
  unit : r.unit = f.unit

/-- Both fields can be integrated over the dimensions `dims`, with the same result. -/
def SameIntegral (dims : List ℕ) (f r : Field K V) : Prop :=
  ∃ s t, f.integrateFast (dims.map Int.ofNat) = .ok s ∧ r.integrateFast (dims.map Int.ofNat) = .ok t ∧
    t.shape = s.shape ∧ t.axes = s.axes ∧ ∀ idx, InBounds s.shape idx → t.matrix.at' idx = s.matrix.at' idx

end

end Postpic.Spec
