import Verif.Spec.PadArg
import Verif.Lemmas.PadArg
import Verif.Props.FieldResolution

/-!
# The argument of `pad`
-/

set_option autoImplicit false
set_option linter.unusedSectionVars false

namespace Postpic.Props

open Postpic Postpic.Axes Postpic.Fields Postpic.Spec

section
variable {K V : Type} [_root_.Field K] [LinearOrder K] [FloorRing K]

/-- C120: lists and tuples of all forms of `np.pad`, except for `(before, after)`, give the same as one pair per dimension. -/
theorem pad_forms_partial (spl : Splines K) (f : Field K V) (arg : PadArg K) (c : V) (hne : f.axes ≠ [])
    (hd : f.dims = f.shape.length) (ws : List (PadWidth K × PadWidth K)) (ha : ∀ l, arg ≠ .array l)
    (h : NumpyWidths f.shape.length (entriesOf arg) ws) :
    (f.padWith spl arg c).2 = f.pad spl ws c := by
  apply padWith_eq spl f arg c hne
  have key : (arg.repeated f.dims).2 = if (entriesOf arg).length = 1 then pyRepeat (entriesOf arg) f.dims else entriesOf arg := by
    cases arg with
    | num w => simp [PadArg.repeated, entriesOf]
    | list l => by_cases hl : l.length = 1 <;> simp [PadArg.repeated, entriesOf, hl]
    | tuple l => by_cases hl : l.length = 1 <;> simp [PadArg.repeated, entriesOf, hl]
    | array l => exact absurd rfl (ha l)
  rw [key, hd]
  have rep : ∀ (a : PadEntry K) (w : PadWidth K × PadWidth K) (n : ℕ), a.pair = .ok w →
      (List.replicate n a).mapM PadEntry.pair = .ok (List.replicate n w) := by
    intro a w n hw
    induction n with
    | zero => rfl
    | succ n ih => rw [List.replicate_succ, List.mapM_cons, hw, ih]; rfl
  have each : ∀ {α : Type} (g : α → PadEntry K) (p : α → PadWidth K × PadWidth K) (hg : ∀ a, (g a).pair = .ok (p a)) (l : List α),
      (l.map g).mapM PadEntry.pair = .ok (l.map p) := by
    intro α g p hg l
    induction l with
    | nil => rfl
    | cons a l ih => rw [List.map_cons, List.mapM_cons, hg, ih]; rfl
  generalize entriesOf arg = es at h
  cases h with
  | each _ h =>
    have := each (fun p : PadWidth K × PadWidth K => .seq [p.1, p.2]) id (fun _ => rfl) ws
    rw [List.map_id] at this
    split
    · next h1 =>
      rw [List.length_map] at h1
      obtain ⟨p, rfl⟩ := List.length_eq_one_iff.1 h1
      rw [List.map_cons, List.map_nil, pyRepeat_single, ← h]
      exact rep _ p 1 rfl
    · exact this
  | eachBoth ws h =>
    have := each (fun w : PadWidth K => .seq [w]) (fun w => (w, w)) (fun _ => rfl) ws
    split
    · next h1 =>
      rw [List.length_map] at h1
      obtain ⟨p, rfl⟩ := List.length_eq_one_iff.1 h1
      rw [List.map_cons, List.map_nil, pyRepeat_single, ← h]
      exact rep _ (p, p) 1 rfl
    · exact this
  | pair w w' =>
    simp only [List.length_singleton, if_true, pyRepeat_single]
    exact rep _ _ _ rfl
  | both w =>
    simp only [List.length_singleton, if_true, pyRepeat_single]
    exact rep _ _ _ rfl

/-- C120: numbers and tuples of the caller stay as they are, lists and arrays do unless they have a single entry. -/
theorem pad_argument_partial (spl : Splines K) (f : Field K V) (arg : PadArg K) (c : V)
    (h : (∃ w, arg = .num w) ∨ (∃ l, arg = .tuple l) ∨ (entriesOf arg).length ≠ 1) : (f.padWith spl arg c).1 = arg := by
  unfold Field.padWith
  split
  · rfl
  · rcases h with ⟨w, rfl⟩ | ⟨l, rfl⟩ | h
    · rfl
    · rfl
    · cases arg with
      | num w => rfl
      | tuple l => rfl
      | list l =>
        have : l.length ≠ 1 := h
        simp [PadArg.repeated, this]
      | array l =>
        have : l.length ≠ 1 := by simpa [entriesOf] using h
        simp [PadArg.repeated, this]

/-- C120: a sequence of no or of more than two numbers for a dimension is refused. -/
theorem pad_refused (spl : Splines K) (f : Field K V) (arg : PadArg K) (c : V) (ht : f.tao.length = f.axes.length)
    (hd : f.dims = f.axes.length) (ws : List (PadWidth K)) (hs : PadEntry.seq ws ∈ entriesOf arg) (hw : ws.length ≠ 1 ∧ ws.length ≠ 2)
    (r : Field K V) : (f.padWith spl arg c).2 ≠ .ok r := by
  intro h
  unfold Field.padWith at h
  split at h
  · cases h
  · next hne =>
    have hpos : f.axes.length ≠ 0 := fun h => hne (List.length_eq_zero_iff.1 h)
    have hmem : PadEntry.seq ws ∈ (arg.repeated f.dims).2 := by
      rw [hd]
      have one : ∀ l : List (PadEntry K), l.length = 1 → PadEntry.seq ws ∈ l → PadEntry.seq ws ∈ pyRepeat l (f.axes.length : ℤ) := by
        intro l hl hm
        obtain ⟨a, rfl⟩ := List.length_eq_one_iff.1 hl
        rw [pyRepeat_single]
        rw [List.mem_singleton] at hm
        rw [← hm]
        exact List.mem_replicate.2 ⟨hpos, rfl⟩
      cases arg with
      | num w => simp [entriesOf] at hs
      | list l =>
        by_cases hl : l.length = 1
        · simpa [PadArg.repeated, hl] using one l hl hs
        · simpa [PadArg.repeated, hl, entriesOf] using hs
      | tuple l =>
        by_cases hl : l.length = 1
        · simpa [PadArg.repeated, hl] using one l hl hs
        · simpa [PadArg.repeated, hl, entriesOf] using hs
      | array l => simp [entriesOf] at hs
    have hpair : ∀ w, (PadEntry.seq ws).pair ≠ .ok w := by
      intro w h
      rcases ws with _ | ⟨a, _ | ⟨b, _ | ⟨d, t⟩⟩⟩
      · cases h
      · exact hw.1 rfl
      · exact hw.2 rfl
      · cases h
    simp only at h
    by_cases hl : ((arg.repeated f.dims).2.length : ℤ) ≠ f.dims
    · simp only [if_pos hl, bind, Except.bind, throw, throwThe, MonadExceptOf.throw] at h
      cases h
    · simp only [if_neg hl, bind, Except.bind, pure, Except.pure] at h
      push Not at hl
      generalize (arg.repeated f.dims).2 = es at *
      rw [hd] at hl
      split at h
      · cases h
      · next a ha =>
        obtain ⟨i, hi, he⟩ := List.mem_iff_getElem.1 hmem
        have hz : i < ((f.axes.zip f.tao).zip es).length := by
          rw [List.length_zip, List.length_zip, ht, Nat.min_self, lt_min_iff]
          omega
        have hall := mapM_ok ha
        have := (List.forall₂_iff_get.1 hall).2 i hz (by rw [← (List.forall₂_iff_get.1 hall).1]; exact hz)
        simp only [List.get_eq_getElem, List.getElem_zip, he] at this
        cases hp : (PadEntry.seq ws).pair with
        | error e => rw [hp] at this; cases this
        | ok w => exact hpair w hp

end

/-! ### Examples and violations -/

example : NumpyWidths 2 (entriesOf (.tuple [.seq [.cells 1, .length (3 / 2)]] : PadArg ℚ)) [(.cells 1, .length (3 / 2)), (.cells 1, .length (3 / 2))] :=
  .pair _ _

example : ((field43.padWith midSplines (.tuple [.seq [.cells 1, .cells 0], .seq [.cells 0, .length 3]]) 7).2.map fun r => (r.shape, values r)) =
    .ok ([5, 5], [7, 7, 7, 7, 7, 0, 1, 2, 7, 7, 100, 101, 102, 7, 7, 200, 201, 202, 7, 7, 300, 301, 302, 7, 7]) := by
  decide +kernel

example (r : Field ℚ ℚ) : (field43.padWith midSplines (.list [.seq [.cells 1, .cells 2, .cells 3]]) 0).2 ≠ .ok r :=
  pad_refused midSplines field43 _ 0 (by decide +kernel) (by decide +kernel) _ (List.mem_singleton.2 rfl) ⟨by decide, by decide⟩ r

example : field43.axes ≠ [] ∧ field43.dims = field43.shape.length := by decide +kernel

/-- C120 fails for `(before, after)`: with one dimension it is refused, with two it means the first and the second dimension. -/
theorem pad_before_after_violated :
    NumpyPair 1 (entriesOf (.tuple [.num (.cells 1), .num (.cells 2)] : PadArg ℚ)) [(.cells 1, .cells 2)] ∧
    ((fieldUneven.padWith midSplines (.tuple [.num (.cells 1), .num (.cells 2)]) 0).2.map values) = .error .valueError ∧
    NumpyPair 2 (entriesOf (.tuple [.num (.cells 1), .num (.cells 2)] : PadArg ℚ)) [(.cells 1, .cells 2), (.cells 1, .cells 2)] ∧
    ((field43.padWith midSplines (.tuple [.num (.cells 1), .num (.cells 2)]) 0).2.map fun r => (r.shape, r.axes.map (·.extent))) =
      .ok ([6, 7], [(-1, 5), (-4, 10)]) ∧
    ((field43.pad midSplines [(.cells 1, .cells 2), (.cells 1, .cells 2)] 0).map fun r => (r.shape, r.axes.map (·.extent))) =
      .ok ([7, 6], [(-1, 6), (-2, 10)]) := by
  refine ⟨.mk _ _, by decide +kernel, .mk _ _, by decide +kernel, by decide +kernel⟩

/-- C120 fails for the list of the caller: with a single entry it has one entry per dimension after the call, so that it cannot be
used for a field with another number of dimensions any more. -/
theorem pad_argument_violated :
    (field43.padWith midSplines (.list [.num (.cells 1)]) 0).1 = .list [.num (.cells 1), .num (.cells 1)] ∧
    ((fieldDown.padWith midSplines (.list [.num (.cells 1)]) 0).2.map fun r => r.shape) = .ok [6] ∧
    ((fieldDown.padWith midSplines (field43.padWith midSplines (.list [.num (.cells 1)]) 0).1 0).2.map fun r => r.shape) =
      .error .valueError := by
  refine ⟨rfl, by decide +kernel, by decide +kernel⟩

/-- C120 fails for an array with one number: the number is multiplied by the number of dimensions, and the call is refused. -/
theorem pad_array_violated :
    NumpyWidths 2 (entriesOf (.array [3] : PadArg ℚ)) [(.cells 3, .cells 3), (.cells 3, .cells 3)] ∧
    (field43.padWith midSplines (.array [3]) 0).1 = .array [6] ∧
    ((field43.padWith midSplines (.array [3]) 0).2.map values) = .error .valueError := by
  refine ⟨.both _, rfl, by decide +kernel⟩

end Postpic.Props
