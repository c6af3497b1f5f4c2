import Verif.Lemmas.FieldHeap
import Verif.Props.FieldAxes

/-!
# C47: sharing of lists and arrays
-/

set_option autoImplicit false

namespace Postpic.Props

open Postpic Postpic.Axes Postpic.Fields Postpic.Spec

variable {K V : Type} [_root_.Field K] [LinearOrder K] [Inhabited V]

/-- C47: fields behave like values. For every program over any fields, as long as it does not both compute with numbers
(or apply functions with one argument) and change lists of transform states or origins in place, and does not both
take views and write to arrays in place: the fields of all variables are the same as if no two fields shared
anything, in particular every change is seen in one variable only. Programs end with the same exceptions. The
missing programs are wrong, see the theorems below. -/
theorem fields_are_values_partial (spl : Splines K) (l : List (Fields.Field K V)) (cs : List (Stmt K V))
    (h1 : (∀ c ∈ cs, ¬ SharesStates c) ∨ ∀ c ∈ cs, ¬ EditsStates c)
    (h2 : (∀ c ∈ cs, ¬ SharesData c) ∨ ∀ c ∈ cs, ¬ WritesData c) :
    (exec spl (Mem.create l) cs).map Mem.contents = valueExec spl (l.map fun f => (f, [])) cs := by
  obtain ⟨i1, i2⟩ := create_inv (∀ c ∈ cs, ¬ SharesStates c) (∀ c ∈ cs, ¬ SharesData c) l
  have := exec_agree spl cs _ i1 (fun h => h) (fun h => h1.resolve_left h) (fun h => h) (fun h => h2.resolve_left h)
  rw [i2] at this
  rcases this with ⟨s, h3, h4, -⟩ | ⟨e, h3, h4⟩
  · rw [h3, h4]
    rfl
  · rw [h3, h4]
    rfl

/-- What a program prints in the examples: values at the first position, states and number of axes. -/
structure Glance where
  value : ℚ
  ats : List (Option Bool)
  tao : List (Option ℚ)
  axes : ℕ
  infos : List String
deriving DecidableEq

def glance (s : Mem ℚ ℚ) : List Glance :=
  s.contents.map fun v => ⟨v.1.matrix.at' [0, 0], v.1.ats, v.1.tao, v.1.axes.length, v.2⟩

/-- The sum of a field with itself, then changes of the sum; a copy, then changes of the original. -/
def cleanProgram : List (Stmt ℚ ℚ) :=
  [.binary 0 0 (· + ·), .setitem 1 [0, 0] 7, .editStates 1 fun _ => [some true, some true], .copy 0 true,
    .editOrigins 0 fun _ => [some 1, some 2], .setitem 0 [0, 0] 8, .editInfos 2 fun l => l ++ ["note"]]

example : (∀ c ∈ cleanProgram, ¬ SharesStates c) ∧ (∀ c ∈ cleanProgram, ¬ SharesData c) ∧
    (exec midSplines (Mem.create [field43]) cleanProgram).map glance =
      .ok [⟨8, [some false, some false], [some 1, some 2], 2, []⟩, ⟨7, [some true, some true], [none, none], 2, []⟩,
        ⟨0, [some false, some false], [none, none], 2, ["note"]⟩] := by
  refine ⟨?_, ?_, ?_⟩
  · simp [cleanProgram, SharesStates]
  · simp [cleanProgram, SharesData]
  · decide +kernel

/-- C47, in any situation: a statement that returns a field does not change any field, and what it returns is computed
from the current values of its operands. -/
theorem operations_keep_inputs (spl : Splines K) (l : List (Fields.Field K V)) (cs : List (Stmt K V)) (s s' : Mem K V)
    (hs : exec spl (Mem.create l) cs = .ok s) (c : Stmt K V) (hc : changes c = none) (h : step spl s c = .ok s') :
    valueStep spl s.contents c = .ok s'.contents ∧ ∃ x, s'.contents = s.contents ++ [x] := by
  have hok := exec_ok spl cs _ s (create_inv True True l).1.below hs
  rcases step_grows spl hok c hc with ⟨t, h1, h2, -, h3⟩ | ⟨e, h1, -⟩
  · rw [h] at h1
    cases h1
    exact ⟨h2, h3⟩
  · rw [h] at h1
    cases h1

example : ((exec midSplines (Mem.create [field43]) [.number 0 (· + ·) 1, .real 1, .setitem 2 [0, 0] 5,
    .number 1 (· * ·) 2]).map glance).map (fun l => l.map (·.value)) = .ok [0, 5, 5, 10] := by
  decide +kernel

/-- C47, copies: after `g = f.copy()`, whatever is done to `g` leaves `f` and all other fields as they are, and the other way
round. -/
theorem copy_independent (spl : Splines K) (l : List (Fields.Field K V)) (i k : ℕ) (hk : k = i ∨ k = l.length)
    (cs : List (Stmt K V)) (hcs : ∀ c ∈ cs, changes c = some k) (s : Mem K V)
    (hs : exec spl (Mem.create l) (.copy i true :: cs) = .ok s) :
    s.contents.length = l.length + 1 ∧
      (∀ (j : ℕ) f, j ≠ k → l[j]? = some f → s.contents[j]? = some (f, [])) ∧
      (k = i → ∀ f, l[i]? = some f → s.contents[l.length]? = some (f, [])) := by
  have hno : ∀ c ∈ (.copy i true :: cs : List (Stmt K V)), ¬ SharesStates c ∧ ¬ SharesData c := by
    intro c hc
    rcases List.mem_cons.1 hc with rfl | hc
    · exact ⟨fun h => h, fun h => h⟩
    · have := hcs c hc
      cases c <;> first | exact ⟨fun h => h, fun h => h⟩ | cases this
  have h := fields_are_values_partial spl l (.copy i true :: cs) (Or.inl fun c hc => (hno c hc).1)
    (Or.inl fun c hc => (hno c hc).2)
  rw [hs] at h
  unfold valueExec at h
  obtain ⟨vs, hv, h⟩ := bind_ok h.symm
  obtain ⟨x, hx, hv⟩ := bind_ok hv
  have hx' := get_ok hx
  rw [List.getElem?_map] at hx'
  cases hv
  obtain ⟨h1, h2⟩ := value_exec_changes spl cs _ _ hcs h
  refine ⟨by rw [h1]; simp, ?_, ?_⟩
  · intro j f hj hf
    have hlt := (List.getElem?_eq_some_iff.1 hf).1
    rw [h2 j hj, List.getElem?_append_left (by simpa using hlt), List.getElem?_map, hf]
    rfl
  · rintro rfl f hf
    have hlt := (List.getElem?_eq_some_iff.1 hf).1
    rw [hf] at hx'
    rw [h2 _ (by omega), List.getElem?_append_right (by simp)]
    simp only [List.length_map, Nat.sub_self, List.getElem?_cons_zero]
    exact hx'.symm

example : (exec midSplines (Mem.create [field43]) (.copy 0 true :: [.setitem 1 [0, 0] 5,
    .editStates 1 fun _ => []])).map glance =
      .ok [⟨0, [some false, some false], [none, none], 2, []⟩, ⟨5, [], [none, none], 2, []⟩] := by
  decide +kernel

/-- C47, arithmetic of two fields: whatever is done to the result leaves the operands as they are. -/
theorem sum_independent (spl : Splines K) (l : List (Fields.Field K V)) (i j : ℕ) (g : V → V → V)
    (cs : List (Stmt K V)) (hcs : ∀ c ∈ cs, changes c = some l.length) (s : Mem K V)
    (hs : exec spl (Mem.create l) (.binary i j g :: cs) = .ok s) :
    ∀ (k : ℕ) f, l[k]? = some f → s.contents[k]? = some (f, []) := by
  have hno : ∀ c ∈ (.binary i j g :: cs : List (Stmt K V)), ¬ SharesStates c ∧ ¬ SharesData c := by
    intro c hc
    rcases List.mem_cons.1 hc with rfl | hc
    · exact ⟨fun h => h, fun h => h⟩
    · have := hcs c hc
      cases c <;> first | exact ⟨fun h => h, fun h => h⟩ | cases this
  have h := fields_are_values_partial spl l (.binary i j g :: cs) (Or.inl fun c hc => (hno c hc).1)
    (Or.inl fun c hc => (hno c hc).2)
  rw [hs] at h
  unfold valueExec at h
  obtain ⟨vs, hv, h⟩ := bind_ok h.symm
  obtain ⟨x, -, hv⟩ := bind_ok hv
  obtain ⟨y, -, hv⟩ := bind_ok hv
  obtain ⟨r, -, hv⟩ := bind_ok hv
  cases hv
  obtain ⟨-, h2⟩ := value_exec_changes spl cs _ _ hcs h
  intro k f hf
  have hlt := (List.getElem?_eq_some_iff.1 hf).1
  rw [h2 k (by omega), List.getElem?_append_left (by simpa using hlt), List.getElem?_map, hf]
  rfl

example : (exec midSplines (Mem.create [field43, field43]) (.binary 0 1 (· + ·) :: [.setitem 2 [0, 0] 5,
    .editAxes 2 fun l => l.take 1])).map (fun s => (glance s).map fun v => (v.value, v.axes)) =
      .ok [(0, 2), (0, 2), (5, 1)] := by
  decide +kernel

/-- C47 is violated by arithmetic with a number: `g = f + 1` and `f` have the same list of transform states, and changing it
for `g` changes `f`. -/
theorem number_states_violated :
    (exec midSplines (Mem.create [field43]) [.number 0 (· + ·) 1, .editStates 1 fun l => l.set 0 (some true)]).map
      (fun s => s.contents.map fun v => v.1.ats) = .ok [[some true, some false], [some true, some false]] := by
  decide +kernel

/-- C47 is violated by functions of one argument: `g = -f` shares the list of origins with `f`. The method to shift the grid
in the frequency domain (`_shift_grid_by_fourier` with `skip_fft`) changes this list in place, so that a shift of
`g` also shifts `f`. -/
theorem unary_origins_violated :
    (exec midSplines (Mem.create [{ field43 with tao := [some 0, some 0] }]) [.unary 0 fun a => ⟨a.shape, fun i => -a.at' i⟩,
      .editOrigins 1 fun l => l.map (·.map (· + 3))]).map (fun s => s.contents.map fun v => v.1.tao) =
        .ok [[some 3, some 3], [some 3, some 3]] := by
  decide +kernel

/-- C47 is violated by the real part of a real field, which is a view: writing to it changes the field. -/
theorem real_violated :
    (exec midSplines (Mem.create [field43]) [.real 0, .setitem 1 [0, 0] 5]).map (fun s => (glance s).map (·.value)) =
      .ok [5, 5] := by
  decide +kernel

/-- Shallow copies share the array, but not the lists. -/
theorem shallow_copy_shares_data :
    (exec midSplines (Mem.create [field43]) [.copy 0 false, .setitem 1 [0, 0] 5, .editStates 1 fun _ => [],
      .editAxes 1 fun _ => []]).map glance =
        .ok [⟨5, [some false, some false], [none, none], 2, []⟩, ⟨5, [], [none, none], 0, []⟩] := by
  decide +kernel

/-- A part of a field selected by slices is a view: writing to `f[1:3, 0:2]` changes `f`. -/
theorem getitem_shares_data :
    (exec midSplines (Mem.create [field43]) [.getitem 0 [.slice ⟨some 1, some 3, false⟩, .slice ⟨some 0, some 2, false⟩],
      .setitem 1 [0, 0] 5]).map (fun s => s.contents.map fun v => (v.1.shape, v.1.matrix.at' [0, 0], v.1.matrix.at' [1, 0])) =
        .ok [([4, 3], 0, 5), ([2, 2], 5, 200)] := by
  decide +kernel

end Postpic.Props
