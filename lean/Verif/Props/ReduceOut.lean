import Verif.Model.ReduceOut
import Verif.Props.FieldReduce

/-!
# Reductions into an existing field or array (C121)
-/

set_option autoImplicit false

namespace Postpic.Props

open Postpic Postpic.Axes Postpic.Fields Postpic.Spec

section
variable {K V : Type} [_root_.Field K] [LinearOrder K] [IsStrictOrderedRing K] [Zero V] [DecidableEq V]

theorem reduceInto_of {spl : Splines K} {red : List V → V} {f r : Field K V} {axis : Option (List ℤ)} {keepdims : Bool}
    (h : f.reduce spl red axis keepdims = .ok r) (a : Arr V) :
    reduceInto red f.matrix axis keepdims a = if a.shape = r.shape then .ok r.matrix else .error .valueError := by
  have hm : ∀ {m : Arr V} {name unit : String} {axes : List (Axis K)} {ats tao} {g : Field K V},
      mkField m name unit axes ats tao = .ok g → g.matrix = m := by
    intro m name unit axes ats tao g hg
    unfold mkField at hg
    split at hg
    · cases hg
    · simp only [bind, Except.bind, pure, Except.pure] at hg
      split at hg
      · cases hg
      · cases hg; rfl
  unfold reduceInto
  unfold Field.reduce at h
  cases hs : normAxes f.matrix.shape.length axis with
  | error e =>
    exfalso
    have hs' : normAxes f.shape.length axis = .error e := hs
    rw [hs'] at h
    cases keepdims with
    | true =>
      simp only [if_true, bind, Except.bind] at h
      split at h <;> cases h
    | false =>
      simp only [Bool.false_eq_true, if_false, bind, Except.bind] at h
      repeat (first | (split at h) | cases h)
  | ok sel =>
    have hs' : normAxes f.shape.length axis = .ok sel := hs
    rw [hs'] at h
    cases keepdims with
    | true =>
      simp only [if_true, bind, Except.bind] at h ⊢
      split at h
      · cases h
      · have := hm h
        simp only [Field.shape, this]
        split <;> rfl
    | false =>
      simp only [Bool.false_eq_true, if_false, bind, Except.bind] at h ⊢
      split at h
      · cases h
      · split at h
        · cases h
        · split at h
          · cases h
          · have := hm h
            simp only [Field.shape, this]
            split <;> rfl

/-- C121 for fields: whatever a reduction returns without `out`, with a field of the same shape as `out` this field is returned, holding
the same data; its axes, name, unit and transform states stay as they were. A field of another shape is refused and not changed. -/
theorem reduce_out_field (spl : Splines K) (red : List V → V) (f r g : Field K V) (axis : Option (List ℤ)) (keepdims : Bool)
    (h : f.reduce spl red axis keepdims = .ok r) :
    (g.shape = r.shape → f.reduceOut red axis keepdims (.field g) = (.field { g with matrix := r.matrix }, none)) ∧
    (g.shape ≠ r.shape → f.reduceOut red axis keepdims (.field g) = (.field g, some .valueError)) := by
  have hi := reduceInto_of h g.matrix
  constructor
  · intro hs
    rw [if_pos (show g.matrix.shape = r.shape from hs)] at hi
    simp only [Field.reduceOut, hi]
  · intro hs
    rw [if_neg (show ¬ g.matrix.shape = r.shape from hs)] at hi
    simp only [Field.reduceOut, hi]

/-- The number of entries of an array. -/
def entryCount (a : Arr V) : ℕ := a.shape.prod

/-- C121 for arrays: the data is written to an array of the right shape, but the array is returned only if it has a single entry which is
not 0. -/
theorem reduce_out_array_partial (spl : Splines K) (red : List V → V) (f r : Field K V) (a : Arr V) (axis : Option (List ℤ))
    (keepdims : Bool) (h : f.reduce spl red axis keepdims = .ok r) :
    (a.shape = r.shape → ∃ e, f.reduceOut red axis keepdims (.array a) = (.array r.matrix, e) ∧
      (e = none ↔ entryCount r.matrix = 1 ∧ r.matrix.at' (r.shape.map fun _ => 0) ≠ 0)) ∧
    (a.shape ≠ r.shape → f.reduceOut red axis keepdims (.array a) = (.array a, some .valueError)) := by
  have hi := reduceInto_of h a
  constructor
  · intro hs
    rw [if_pos hs] at hi
    refine ⟨match truthOf r.matrix with
      | .error e => some e
      | .ok true => none
      | .ok false => some .nameError, by simp only [Field.reduceOut, hi]; rfl, ?_⟩
    have hp : r.matrix.shape.foldr (· * ·) 1 = entryCount r.matrix := rfl
    unfold truthOf
    rw [hp]
    rcases hc : entryCount r.matrix with _ | _ | n
    · simp
    · have : r.shape = r.matrix.shape := rfl
      rw [this]
      generalize r.matrix.at' (r.matrix.shape.map fun _ => 0) = v
      by_cases hv : v = 0
      · simp [hv]
      · simp [hv]
    · simp
  · intro hs
    rw [if_neg hs] at hi
    simp only [Field.reduceOut, hi]

/-- C121 fails for tuples, which numpy accepts: always refused. -/
theorem reduce_out_tuple_violated (red : List V → V) (f : Field K V) (axis : Option (List ℤ)) (keepdims : Bool)
    (l : List (Field K V ⊕ Arr V)) : f.reduceOut red axis keepdims (.tuple l) = (.tuple l, some .nameError) := rfl

/-- C121 fails for all arrays with several entries: the sum is written to them, and a ValueError is raised. -/
theorem reduce_out_array_violated (spl : Splines K) (red : List V → V) (f r : Field K V) (a : Arr V) (axis : Option (List ℤ))
    (keepdims : Bool) (h : f.reduce spl red axis keepdims = .ok r) (hs : a.shape = r.shape) (hn : 1 < entryCount r.matrix) :
    f.reduceOut red axis keepdims (.array a) = (.array r.matrix, some .valueError) := by
  have hi := reduceInto_of h a
  rw [if_pos hs] at hi
  have hp : r.matrix.shape.foldr (· * ·) 1 = entryCount r.matrix := rfl
  have ht : truthOf r.matrix = .error .valueError := by
    unfold truthOf
    rw [hp]
    obtain ⟨n, hn⟩ : ∃ n, entryCount r.matrix = n + 2 := ⟨entryCount r.matrix - 2, by omega⟩
    rw [hn]
    rfl
  simp only [Field.reduceOut, hi, ht]

end

/-! ### Examples -/

/-- Shape and data of the argument afterwards, and the exception. -/
def outcome (r : Out ℚ ℚ × Option Err) : List (List ℕ × List ℚ) × Option Err :=
  (r.1.data.map fun a => (a.shape, (fibre a.shape (a.shape.map fun _ => true) []).map a.at'), r.2)

/-- `f.sum(0, out=g)`, `f.sum(-1, out=np.zeros(4))`, `f.sum(out=np.zeros(()))` and, the sum being 0, `(0*f).sum(out=np.zeros(()))`. -/
theorem reduce_out_zero_violated :
    outcome (field43.reduceOut List.sum (some [1]) false (.field { field43 with matrix := ⟨[4], fun _ => 7⟩, axes := [uniformAxis 0 4 4] })) =
      ([([4], [3, 303, 603, 903])], none) ∧
    outcome (field43.reduceOut List.sum (some [-1]) false (.array ⟨[4], fun _ => 7⟩)) =
      ([([4], [3, 303, 603, 903])], some .valueError) ∧
    outcome (field43.reduceOut List.sum none false (.array ⟨[], fun _ => 7⟩)) = ([([], [1812])], none) ∧
    outcome (({ field43 with matrix := ⟨[4, 3], fun _ => 0⟩ } : Field ℚ ℚ).reduceOut List.sum none false (.array ⟨[], fun _ => 7⟩)) =
      ([([], [0])], some .nameError) := by
  refine ⟨?_, ?_, ?_, ?_⟩ <;> decide +kernel

example : ∃ r, field43.reduce midSplines List.sum (some [-1]) false = .ok r ∧
    field43.reduceOut List.sum (some [-1]) false (.field { r with matrix := ⟨r.shape, fun _ => 7⟩ }) =
      (.field { r with matrix := r.matrix }, none) :=
  let ⟨r, h, _⟩ := reduce_removes_partial midSplines List.sum field43 field43_sound [-1] [1] (by decide) (by decide) (.inr (by decide))
    (by decide)
  ⟨r, h, (reduce_out_field midSplines _ _ r { r with matrix := ⟨r.shape, fun _ => 7⟩ } _ _ h).1 rfl⟩

example : ∃ r, field43.reduce midSplines List.sum none false = .ok r ∧
    ∃ e, field43.reduceOut List.sum none false (.array ⟨r.shape, fun _ => 7⟩) = (.array r.matrix, e) :=
  let ⟨r, h, _⟩ := reduce_all midSplines List.sum field43 field43_sound
  let ⟨e, h', _⟩ := (reduce_out_array_partial midSplines _ _ r ⟨r.shape, fun _ => 7⟩ _ _ h).1 rfl
  ⟨r, h, e, h'⟩

end Postpic.Props
