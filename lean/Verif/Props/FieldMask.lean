import Verif.Model.FieldMask
import Verif.Props.FieldAssign
import Verif.Props.FieldBroadcast

/-! # C106: arrays as indices of a field -/

set_option autoImplicit false
set_option linter.unusedSectionVars false

namespace Postpic.Props

open Postpic Postpic.Axes Postpic.Fields Postpic.Spec

section
variable {K V : Type} [_root_.Field K] [LinearOrder K] [IsStrictOrderedRing K]

/-- C106: assigning a number through a mask (`field[field > 0] = v`) in one dimension changes the selected points and no others,
and nothing else of the field. Missing: masks given as arrays and more dimensions, see the violations below. -/
theorem mask_assign_partial (f : Field K V) (hf : f.Sound) (h1 : f.shape.length = 1) (m : Arr Bool) (hm : m.shape = f.shape) (v : V) :
    ∃ a : Arr V, f.assignSelected (.maskOne m) v = .ok { f with matrix := a } ∧ a.shape = f.shape ∧
      (∀ idx, m.at' idx = true → a.at' idx = v) ∧ ∀ idx, m.at' idx = false → a.at' idx = f.matrix.at' idx := by
  have hd : ¬ f.dims ≠ 1 := by rw [dims_sound hf, h1]; simp
  have hs : f.selected (.maskOne m) = .ok m.at' := by
    simp only [Field.selected, if_neg hd, hm, ne_eq, not_true_eq_false, if_false]
  refine ⟨⟨f.shape, fun idx => if m.at' idx then v else f.matrix.at' idx⟩, ?_, rfl, ?_, ?_⟩
  · simp only [Field.assignSelected, hs, bind, Except.bind, pure, Except.pure]
  · intro idx h
    simp [h]
  · intro idx h
    simp [h]

/-- C106: a mask of another shape is refused. -/
theorem mask_shape_refused (f : Field K V) (m : Arr Bool) (hm : m.shape ≠ f.shape) (v : V) :
    f.assignSelected (.maskOne m) v = .error .indexError := by
  have hs : f.selected (.maskOne m) = .error .indexError := by
    simp only [Field.selected]
    split_ifs <;> rfl
  simp only [Field.assignSelected, hs, bind, Except.bind]

/-- C106: with a tuple of one list of numbers, in one dimension, exactly the points with these numbers (negative ones count from the
end) are changed; if one number is out of range the assignment is refused. -/
theorem nums_assign (f : Field K V) (hf : f.Sound) (n : ℕ) (hn : f.shape = [n]) (l : List ℤ) (v : V) :
    ((∀ i ∈ l, -(n : ℤ) ≤ i ∧ i < n) → ∃ a : Arr V, f.assignSelected (.numsOne l) v = .ok { f with matrix := a } ∧ a.shape = f.shape ∧
      ∀ k < n, (((k : ℤ) ∈ l ∨ (k : ℤ) - n ∈ l) → a.at' [k] = v) ∧
        (¬ ((k : ℤ) ∈ l ∨ (k : ℤ) - n ∈ l) → a.at' [k] = f.matrix.at' [k])) ∧
    ((∃ i ∈ l, ¬ (-(n : ℤ) ≤ i ∧ i < n)) → f.assignSelected (.numsOne l) v = .error .indexError) := by
  have hd : ¬ f.dims ≠ 1 := by rw [dims_sound hf, hn]; simp
  have hpy : ∀ i : ℤ, (-(n : ℤ) ≤ i ∧ i < n) → ∃ k, pyIdx n i = some k ∧ k < n ∧ ((k : ℤ) = i ∨ (k : ℤ) - n = i) := by
    intro i hi
    unfold pyIdx
    by_cases h0 : 0 ≤ i
    · exact ⟨i.toNat, by rw [if_pos h0, if_pos hi.2], by omega, Or.inl (by omega)⟩
    · exact ⟨(i + n).toNat, by rw [if_neg h0, if_pos hi.1], by omega, Or.inr (by omega)⟩
  have hbad : ∀ i : ℤ, ¬ (-(n : ℤ) ≤ i ∧ i < n) → pyIdx n i = none := by
    intro i hi
    unfold pyIdx
    split_ifs <;> first | rfl | omega
  constructor
  · intro hl
    have key : ∃ ks : List ℕ, l.mapM (numIndex n) = .ok ks ∧
        List.Forall₂ (fun i k => k < n ∧ ((k : ℤ) = i ∨ (k : ℤ) - n = i)) l ks := by
      clear hn hd
      induction l with
      | nil => exact ⟨[], rfl, .nil⟩
      | cons i l ih =>
        obtain ⟨ks, h1, h2⟩ := ih fun j hj => hl j (List.mem_cons_of_mem _ hj)
        obtain ⟨k, k1, k2, k3⟩ := hpy i (hl i List.mem_cons_self)
        refine ⟨k :: ks, ?_, .cons ⟨k2, k3⟩ h2⟩
        rw [List.mapM_cons, h1]
        simp only [numIndex, k1, bind, Except.bind, pure, Except.pure]
    obtain ⟨ks, h1, h2⟩ := key
    have hs : f.selected (.numsOne l) = .ok fun idx => decide (∃ k ∈ ks, idx = [k]) := by
      simp only [Field.selected, if_neg hd, hn, List.headD_cons, h1, bind, Except.bind, pure, Except.pure]
    refine ⟨⟨f.shape, fun idx => if decide (∃ k ∈ ks, idx = [k]) then v else f.matrix.at' idx⟩, ?_, rfl, ?_⟩
    · simp only [Field.assignSelected, hs, bind, Except.bind, pure, Except.pure]
    · intro k hk
      have hmem : k ∈ ks ↔ ((k : ℤ) ∈ l ∨ (k : ℤ) - n ∈ l) := by
        have hl' := hl
        clear h1 hs hl
        induction h2 with
        | nil => simp
        | @cons i j l ks hj h2 ih =>
          have := ih fun x hx => hl' x (List.mem_cons_of_mem _ hx)
          simp only [List.mem_cons, this]
          have hi := hl' i List.mem_cons_self
          constructor
          · rintro (rfl | h | h)
            · rcases hj.2 with h | h
              · exact Or.inl (Or.inl h)
              · exact Or.inr (Or.inl h)
            · exact Or.inl (Or.inr h)
            · exact Or.inr (Or.inr h)
          · rintro ((h | h) | (h | h))
            · left
              rcases hj.2 with h3 | h3 <;> omega
            · exact Or.inr (Or.inl h)
            · left
              rcases hj.2 with h3 | h3 <;> omega
            · exact Or.inr (Or.inr h)
      constructor
      · intro h
        have : ∃ q ∈ ks, [k] = [q] := ⟨k, hmem.2 h, rfl⟩
        simp only [this, decide_true, if_true]
      · intro h
        have : ¬ ∃ q ∈ ks, [k] = [q] := by
          rintro ⟨q, hq, he⟩
          simp only [List.cons.injEq, and_true] at he
          subst he
          exact h (hmem.1 hq)
        simp only [this, decide_false, Bool.false_eq_true, if_false]
  · intro hl
    have key : l.mapM (numIndex n) = .error .indexError := by
      clear hn hd
      obtain ⟨i, hi, hb⟩ := hl
      induction l with
      | nil => simp at hi
      | cons j l ih =>
        rw [List.mapM_cons]
        by_cases hj : -(n : ℤ) ≤ j ∧ j < n
        · obtain ⟨k, k1, _⟩ := hpy j hj
          have : i ∈ l := by
            rcases List.mem_cons.1 hi with rfl | h
            · exact absurd hj hb
            · exact h
          simp only [numIndex, k1, bind, Except.bind]
          rw [ih this]
        · simp only [numIndex, hbad j hj, bind, Except.bind]
    simp only [Field.assignSelected, Field.selected, if_neg hd, hn, List.headD_cons, key, bind, Except.bind]

/-- C106, violated: an array of truth values with the shape of the field, which numpy takes as a mask, is refused for all fields but
those with the shape (1,) or (2, 2). -/
theorem mask_array_violated (f : Field K V) (hf : f.Sound) (m : Arr Bool) (hm : m.shape = f.shape) (h0 : f.shape ≠ [])
    (h1 : f.shape ≠ [1]) (h2 : f.shape ≠ [2, 2]) (v : V) : f.assignSelected (.mask m) v = .error .indexError := by
  have hs : f.selected (.mask m) = .error .indexError := by
    have hd := dims_sound hf
    have hne := hf.nonempty
    simp only [Field.selected, hm, hd]
    match hsh : f.shape with
    | [] => exact absurd hsh h0
    | n :: rest =>
      simp only
      by_cases hn : (n : ℤ) ≠ ((n :: rest).length : ℕ)
      · rw [if_pos hn]
      · rw [if_neg hn]
        simp only [List.length_cons, ne_eq, not_not] at hn
        have hn' : n = rest.length + 1 := by exact_mod_cast hn
        rw [if_neg (by omega)]
        match rest, hsh with
        | [], hsh =>
          simp only [List.length_nil] at hn'
          subst hn'
          exact absurd hsh h1
        | [k], hsh =>
          simp only [List.length_cons, List.length_nil] at hn'
          subst hn'
          have hk : k ≠ 2 := fun h => h2 (by rw [hsh, h])
          simp only [List.any_cons, List.any_nil]
          have hk' : (decide (0 + 1 + 1 ≠ k) || (decide (k ≠ k) || false)) = true := by
            simp [Ne.symm hk]
          exact if_pos hk'
        | _ :: _ :: _, _ => rfl
  simp only [Field.assignSelected, hs, bind, Except.bind]

/-- C106, violated: of a field with 2 times 2 points a mask selects other points. Here the first column is to be set, and one point is
set. -/
theorem mask_square_violated (f : Field K V) (h : f.shape = [2, 2]) (v : V) :
    ∃ a : Arr V, f.assignSelected (.mask ⟨[2, 2], fun idx => decide (idx.getD 1 0 = 0)⟩) v = .ok { f with matrix := a } ∧
      a.at' [0, 0] = v ∧ a.at' [1, 0] = f.matrix.at' [1, 0] := by
  have hd : f.dims = 2 := by
    unfold Field.dims
    rw [h]
    rfl
  have hfancy : fancy ((List.range 2).map fun i => truePositions 2 fun j => decide ([i, j].getD 1 0 = 0)) = .ok [[0, 0]] := by
    decide +kernel
  have hs : f.selected (.mask ⟨[2, 2], fun idx => decide (idx.getD 1 0 = 0)⟩) = .ok fun idx => decide (idx ∈ [[0, 0]]) := by
    simp only [Field.selected, hd, h, hfancy, bind, Except.bind, pure, Except.pure]
    rfl
  refine ⟨⟨f.shape, fun idx => if decide (idx ∈ [[0, 0]]) then v else f.matrix.at' idx⟩, ?_, ?_, ?_⟩
  · simp only [Field.assignSelected, hs, bind, Except.bind, pure, Except.pure]
  · simp
  · simp

/-- C106: a list of numbers which is not in a tuple is taken as one number per dimension: one element is changed, and a list with
another number of entries is refused, though numpy takes the numbers for the first dimension. -/
theorem list_assign (f : Field K V) (hf : f.Sound) (l : List ℤ) (v : V) :
    (l.length ≠ f.shape.length → f.assignSelected (.nums l) v = .error .indexError) ∧
    (List.Forall₂ (fun (n : ℕ) i => -(n : ℤ) ≤ i ∧ i < n) f.shape l → ∃ (ks : List ℕ) (a : Arr V), InBounds f.shape ks ∧
      (∀ (d n k : ℕ) (i : ℤ), f.shape[d]? = some n → l[d]? = some i → ks[d]? = some k → (k : ℤ) = i ∨ (k : ℤ) - n = i) ∧
      f.assignSelected (.nums l) v = .ok { f with matrix := a } ∧ a.shape = f.shape ∧ a.at' ks = v ∧
      ∀ idx, idx ≠ ks → a.at' idx = f.matrix.at' idx) := by
  constructor
  · intro h
    have : (l.length : ℤ) ≠ f.dims := by
      rw [dims_sound hf]
      exact_mod_cast h
    simp only [Field.assignSelected, Field.selected, if_pos this, bind, Except.bind]
  · intro h
    have key : ∀ (s : List ℕ) (l : List ℤ), List.Forall₂ (fun (n : ℕ) i => -(n : ℤ) ≤ i ∧ i < n) s l → ∃ ks : List ℕ,
        (s.zip l).mapM (fun p => numIndex p.1 p.2) = .ok ks ∧ ks.length = s.length ∧
        ∀ (d n k : ℕ) (i : ℤ), s[d]? = some n → l[d]? = some i → ks[d]? = some k → k < n ∧ ((k : ℤ) = i ∨ (k : ℤ) - n = i) := by
      intro s l hsl
      induction hsl with
      | nil => exact ⟨[], rfl, rfl, by simp⟩
      | @cons n i s l hi _ ih =>
        obtain ⟨ks, h1, h2, h3⟩ := ih
        have hk : ∃ k, numIndex n i = .ok k ∧ k < n ∧ ((k : ℤ) = i ∨ (k : ℤ) - n = i) := by
          unfold numIndex pyIdx
          by_cases h0 : 0 ≤ i
          · exact ⟨i.toNat, by rw [if_pos h0, if_pos hi.2], by omega, Or.inl (by omega)⟩
          · exact ⟨(i + n).toNat, by rw [if_neg h0, if_pos hi.1], by omega, Or.inr (by omega)⟩
        obtain ⟨k, k1, k2⟩ := hk
        refine ⟨k :: ks, ?_, by simp [h2], ?_⟩
        · rw [List.zip_cons_cons, List.mapM_cons, h1]
          simp only [k1, bind, Except.bind, pure, Except.pure]
        · intro d n' k' i' e1 e2 e3
          cases d with
          | zero =>
            simp only [List.getElem?_cons_zero, Option.some.injEq] at e1 e2 e3
            subst e1 e2 e3
            exact k2
          | succ d => exact h3 d n' k' i' e1 e2 e3
    obtain ⟨ks, h1, h2, h3⟩ := key _ _ h
    have hlen := h.length_eq
    have hd : ¬ (l.length : ℤ) ≠ f.dims := by
      rw [dims_sound hf]
      simp [hlen]
    have hs : f.selected (.nums l) = .ok fun idx => decide (idx = ks) := by
      simp only [Field.selected, if_neg hd, h1, bind, Except.bind, pure, Except.pure]
    refine ⟨ks, ⟨f.shape, fun idx => if decide (idx = ks) then v else f.matrix.at' idx⟩, ⟨h2, ?_⟩, ?_, ?_, rfl, ?_, ?_⟩
    · intro d k n e1 e2
      have hdl : d < l.length := by
        have := (List.getElem?_eq_some_iff.1 e2).1
        omega
      exact (h3 d n k _ e2 (List.getElem?_eq_getElem hdl) e1).1
    · intro d n k i e1 e2 e3
      exact (h3 d n k i e1 e2 e3).2
    · simp only [Field.assignSelected, hs, bind, Except.bind, pure, Except.pure]
    · simp
    · intro idx hidx
      simp [hidx]

/-- C106, violated: reading through a mask returns the selected values, in order, in a field without axes. -/
theorem mask_get_violated (f : Field K V) (hf : f.Sound) (n : ℕ) (hn : f.shape = [n]) (m : Arr Bool) (hm : m.shape = f.shape) :
    ∃ r, f.getMask m = .ok r ∧ r.axes = [] ∧ ¬ r.Ok ∧
      r.shape = [((List.range n).filter fun i => m.at' [i]).length] ∧
      ∀ (q k : ℕ), ((List.range n).filter fun i => m.at' [i])[q]? = some k → r.matrix.at' [q] = f.matrix.at' [k] := by
  have hd : ¬ f.dims ≠ 1 := by rw [dims_sound hf, hn]; simp
  have hs : f.selected (.maskOne m) = .ok m.at' := by
    simp only [Field.selected, if_neg hd, hm, ne_eq, not_true_eq_false, if_false]
  refine ⟨{ f with
    matrix := ⟨[(truePositions (f.shape.headD 0) fun i => m.at' [i]).length],
      fun idx => f.matrix.at' [(truePositions (f.shape.headD 0) fun i => m.at' [i]).getD (idx.getD 0 0) 0]⟩,
    axes := [], ats := [], tao := [] }, ?_, rfl, ?_, ?_, ?_⟩
  · simp only [Field.getMask, hs, bind, Except.bind, pure, Except.pure]
  · intro h
    have := h.lengths
    simp [Field.shape] at this
  · show [(truePositions (f.shape.headD 0) fun i => m.at' [i]).length] = _
    rw [hn]
    rfl
  · intro q k hq
    simp only [truePositions, hn, List.headD_cons, List.getD_eq_getElem?_getD, Option.getD_some]
    simp [hq]

end

theorem field4_sound : field4.Sound := by
  refine ⟨⟨rfl, rfl, rfl⟩, ?_, by decide⟩
  intro ax hax
  simp only [field4, List.mem_cons, List.not_mem_nil, or_false] at hax
  subst hax
  exact field43_sound.valid _ (by simp [field43])

/-- One dimension with four points: the second and the last point are set. -/
example : field4.Sound ∧ field4.shape = [4] ∧
    ((field4.assignSelected (.maskOne ⟨[4], fun idx => decide (idx.getD 0 0 % 2 = 1)⟩) 7).toOption.map fun f =>
      [0, 1, 2, 3].map fun i => f.matrix.at' [i]) = some [field4.matrix.at' [0], 7, field4.matrix.at' [2], 7] ∧
    ((field4.assignSelected (.numsOne [-1, 1]) 7).toOption.map fun f =>
      [0, 1, 2, 3].map fun i => f.matrix.at' [i]) = some [field4.matrix.at' [0], 7, field4.matrix.at' [2], 7] := by
  refine ⟨field4_sound, rfl, ?_, ?_⟩ <;> decide +kernel

/-- Two dimensions, for `mask_array_violated` and `list_assign`. -/
example : field43.Sound ∧ field43.shape ≠ [2, 2] ∧ ((field43.assignSelected (.nums [0, 2]) 7).toOption.map fun f =>
      f.matrix.at' [0, 2]) = some 7 := by
  refine ⟨field43_sound, by decide, ?_⟩
  decide +kernel

end Postpic.Props
