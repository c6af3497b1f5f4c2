import Verif.Lemmas.PropagateHistory
import Verif.Props.Propagate

/-! # C103: `kspace_propagate` while the caller works on with its objects -/

set_option autoImplicit false

namespace Postpic.Props

open Postpic Postpic.Axes Postpic.Fields Postpic.Spec

noncomputable section

/-- C103: computing a result changes no field of the caller: neither the given one nor the results handed out before; in
whatever state the computation is and whatever the caller has done before. A direction given as anything but an array of floats
is not changed either (see `propagate_direction_violated`). -/
theorem propagate_overwrites_nothing (spl : Splines ℝ) (c : PropagateCall) (s : History) (a : ℕ) (f : Field ℝ ℂ)
    (ha : s.caller.objs[a]? = some f) :
    (s.act spl c .next).1.caller.objs[a]? = some f ∧
      (c.direction ≠ some true → (s.act spl c .next).1.caller.vect = s.caller.vect) := by
  unfold History.act
  simp only
  cases s.left with
  | zero => exact ⟨ha, fun _ => rfl⟩
  | succ n =>
    obtain ⟨new, h1, h2⟩ := next_frame spl c s.caller s.gen
    refine ⟨?_, h2⟩
    simp only
    rw [h1, List.getElem?_append_left (List.getElem?_eq_some_iff.mp ha).1]
    exact ha


theorem start_good {spl : Splines ℝ} {c : PropagateCall} {m : Caller} {f : Field ℝ ℂ} {freq : Bool} {l : List (Field ℝ ℂ)}
    (hf : m.objs[c.field]? = some f) (hs : collectiveState f.ats f.rangeDims = .ok (some freq))
    (hp : propagate spl f c.nsteps (c.args m.vect) = .ok l) : Good spl c (!freq) m.objs.length (startHistory c m) l :=
  ⟨le_refl _, f, hf, (List.getElem?_eq_some_iff.mp hf).1, hp, by rw [Bool.not_not]; exact hs⟩

/-- C103: a field in the spatial domain is propagated. Whatever the caller does with the results it has got, with the given field
and with the given direction after it has asked for the first result: the results are those of the pure computation (see
`propagate_spatial_partial` for their values), each one a new object, and no more than `nsteps`. Partial: evenly spaced grids
with at least two points; and the caller must not change the given field and direction before it asks for the first result, see
`propagate_lazy_violated`. -/
theorem propagate_history_spatial_partial (spl : Splines ℝ) (hspl : ExactOnEven spl) (c : PropagateCall) (m : Caller)
    (f : Field ℝ ℂ) (shape : List ℕ) (x0 h : ℕ → ℝ) (hf : m.objs[c.field]? = some f) (hg : OnGrid f shape false x0 h)
    (ha : PropagateOk (c.args m.vect) shape.length) (acts : List Act)
    (hu : Undisturbed true c.field m.objs.length false acts) :
    ∃ l, propagate spl f c.nsteps (c.args m.vect) = .ok l ∧ l.length = c.nsteps ∧
      ((startHistory c m).run spl c acts).2 =
        expected (asked acts) ((l.zipIdx m.objs.length).map fun q => .ok (q.2, q.1)) := by
  obtain ⟨_, l, _, _, h1, h2, _⟩ := propagate_spatial_partial spl hspl f shape x0 h hg _ ha c.nsteps
  exact ⟨l, h1, h2, (run_good acts _ l false (start_good hf hg.collective h1) (fun _ => rfl) hu).2 rfl⟩

/-- C103: a field in the frequency domain is propagated. The results are those of the pure computation (see
`propagate_frequency_partial` for their values) if the caller changes neither the given field nor a result. Partial: as above;
and without these restrictions the statement is false, see `propagate_result_shared_violated` and
`propagate_zeroth_shared_violated`. -/
theorem propagate_history_frequency_partial (spl : Splines ℝ) (hspl : ExactOnEven spl) (c : PropagateCall) (m : Caller)
    (f : Field ℝ ℂ) (shape : List ℕ) (x0 h : ℕ → ℝ) (hf : m.objs[c.field]? = some f) (hg : OnGrid f shape true x0 h)
    (ha : PropagateOk (c.args m.vect) shape.length) (acts : List Act)
    (hu : Undisturbed false c.field m.objs.length false acts) :
    ∃ l, propagate spl f c.nsteps (c.args m.vect) = .ok l ∧ l.length = c.nsteps ∧
      ((startHistory c m).run spl c acts).2.map (Option.map (Except.map Prod.snd)) = expected (asked acts) (l.map .ok) := by
  obtain ⟨l, h1, h2, _⟩ := propagate_frequency_partial spl hspl f shape x0 h hg _ ha c.nsteps
  exact ⟨l, h1, h2, (run_good acts _ l false (start_good hf hg.collective h1) (fun _ => rfl) hu).1⟩

/-- C103: arguments which do not fit are found when the first result is asked for, and there are no results then. -/
theorem propagate_error_first (spl : Splines ℝ) (c : PropagateCall) (m : Caller) (f : Field ℝ ℂ) (e : Err)
    (hf : m.objs[c.field]? = some f) (hp : prepare spl f (c.args m.vect) = .error e) (n : ℕ) (hn : c.nsteps ≠ 0) :
    ((startHistory c m).run spl c (List.replicate (n + 1) .next)).2 = some (.error e) :: List.replicate n none := by
  obtain ⟨k, hk⟩ := Nat.exists_eq_succ_of_ne_zero hn
  have fin : ∀ (n : ℕ) (m' : Caller) (k : ℕ),
      (History.run spl c ⟨m', .finished, k⟩ (List.replicate n .next)).2 = List.replicate n none := by
    intro n
    induction n with
    | zero => intros; rfl
    | succ n ih =>
      intro m' k
      rw [List.replicate_succ, List.replicate_succ]
      unfold History.run
      cases k with
      | zero =>
        simp only [History.act, ih]
        rfl
      | succ k =>
        simp only [History.act, Gen.next, Option.map_none, ih]
        rfl
  rw [List.replicate_succ]
  unfold History.run
  simp only [startHistory, hk, History.act, Gen.next, startGen, hf, hp, fin, Option.map_some]
  rfl

/-! ### Violations -/

theorem prepare_plain (spl : Splines ℝ) {f : Field ℝ ℂ} (hs : collectiveState f.ats f.rangeDims = .ok (some true))
    {a : PropagateArgs} (hv : a.movingWindowVect = none) (hr : a.removeAntipropagating ≠ some true)
    (hm : a.moveWindow ≠ some true) : prepare spl f a = .ok ⟨f, false, none⟩ := by
  have hr : a.removeAntipropagating.getD false = false := by
    cases h : a.removeAntipropagating with
    | none => rfl
    | some b =>
      cases b
      · rfl
      · exact absurd h hr
  have hm : a.moveWindow.getD false = false := by
    cases h : a.moveWindow with
    | none => rfl
    | some b =>
      cases b
      · rfl
      · exact absurd h hm
  unfold prepare
  simp only [hs, hv, bind, Except.bind, pure, Except.pure, if_true, Option.isSome_none, hr, hm, Bool.false_eq_true, if_false,
    Bool.not_true]

/-- The program which asks twice for a result, and sets the object `a` to 0 in between. -/
def clearing (a : ℕ) : List Act := [.next, .write a (fieldFreq 0), .next]

def plainCall (t : ℝ) (z : Bool) : PropagateCall := { field := 0, dt := t, nsteps := 2, yieldZerothStep := z }

/-- One step for `fieldFreq`. -/
def stepFreq (t : ℝ) (f : Field ℝ ℂ) : Field ℝ ℂ :=
  f.withData fun idx => f.matrix.at' idx * Fields.expIwt (fieldFreq 1).axes t idx

theorem plainCall_prepare (t : ℝ) (z : Bool) (v : ℂ) : prepare lineSplines (fieldFreq v) ((plainCall t z).args []) =
    .ok ⟨fieldFreq v, false, none⟩ :=
  prepare_plain lineSplines (fieldFreq_grid v).collective rfl
    (by simp [PropagateCall.args, plainCall]) (by simp [PropagateCall.args, plainCall])

theorem plainCall_window (t : ℝ) (z : Bool) : checkWindow ((plainCall t z).args []) = .ok () := by
  simp [checkWindow, PropagateCall.args, plainCall]

theorem plainCall_propagate (t : ℝ) (v : ℂ) :
    propagate lineSplines (fieldFreq v) 2 ((plainCall t false).args []) =
        .ok [stepFreq t (fieldFreq v), stepFreq t (stepFreq t (fieldFreq v))] ∧
      propagate lineSplines (fieldFreq v) 2 ((plainCall t true).args []) =
        .ok [fieldFreq v, stepFreq t (fieldFreq v)] := by
  constructor
  · unfold propagate
    simp only [plainCall_prepare, plainCall_window, bind, Except.bind]
    rfl
  · unfold propagate
    simp only [plainCall_prepare, plainCall_window, bind, Except.bind]
    rfl

theorem stepFreq_ne (t : ℝ) {f : Field ℝ ℂ} (h : f.matrix.at' [0] ≠ 0) : (stepFreq t f).matrix.at' [0] ≠ 0 := by
  unfold stepFreq Field.withData Fields.expIwt
  exact mul_ne_zero h (Complex.exp_ne_zero _)

theorem stepFreq_zero (t : ℝ) : (stepFreq t (fieldFreq 0)).matrix.at' [0] = 0 := by
  unfold stepFreq Field.withData
  exact zero_mul _

/-- C103 violated: the results for a field in the frequency domain are the objects the computation goes on with. Setting the
first one to 0 makes the second one 0. -/
theorem propagate_result_shared_violated (t : ℝ) :
    ∃ g1 g2 z : Field ℝ ℂ, propagate lineSplines (fieldFreq 1) 2 ((plainCall t false).args []) = .ok [g1, g2] ∧
      g2.matrix.at' [0] ≠ 0 ∧ z.matrix.at' [0] = 0 ∧
      ((startHistory (plainCall t false) ⟨[fieldFreq 1], []⟩).run lineSplines (plainCall t false) (clearing 1)).2 =
        [some (.ok (1, g1)), some (.ok (2, z))] := by
  refine ⟨_, _, stepFreq t (fieldFreq 0), (plainCall_propagate t 1).1, ?_, stepFreq_zero t, ?_⟩
  · exact stepFreq_ne t (stepFreq_ne t (by simp [fieldFreq]))
  · have hp := plainCall_prepare t false 1
    have hc := plainCall_window t false
    simp only [clearing, History.run, History.act, startHistory, Gen.next, startGen, plainCall] at hp hc ⊢
    simp only [List.getElem?_cons_zero, hp, hc, enterLoop]
    rfl

/-- C103 violated: with `yield_zeroth_step` the first result for a field in the frequency domain is the given field itself, not a
copy. Setting it to 0 changes the field of the caller, and the second result. -/
theorem propagate_zeroth_shared_violated (t : ℝ) :
    ∃ g2 z : Field ℝ ℂ, propagate lineSplines (fieldFreq 1) 2 ((plainCall t true).args []) = .ok [fieldFreq 1, g2] ∧
      g2.matrix.at' [0] ≠ 0 ∧ z.matrix.at' [0] = 0 ∧
      ((startHistory (plainCall t true) ⟨[fieldFreq 1], []⟩).run lineSplines (plainCall t true) (clearing 0)).2 =
        [some (.ok (0, fieldFreq 1)), some (.ok (1, z))] := by
  refine ⟨_, stepFreq t (fieldFreq 0), (plainCall_propagate t 1).2, stepFreq_ne t (by simp [fieldFreq]), stepFreq_zero t, ?_⟩
  have hp := plainCall_prepare t true 1
  have hc := plainCall_window t true
  simp only [clearing, History.run, History.act, startHistory, Gen.next, startGen, plainCall] at hp hc ⊢
  simp only [List.getElem?_cons_zero, hp]
  simp only [enterLoop, yieldField, Option.isSome_none, Option.getD_none, Bool.or_self, Bool.false_eq_true, if_false, if_true,
    reduceCtorEq, hc]
  rfl

/-- C103 violated: the field is read when the first result is asked for. Setting it to 0 between the call and the first result
makes the results 0. -/
theorem propagate_lazy_violated (t : ℝ) :
    ∃ g1 g2 z : Field ℝ ℂ, propagate lineSplines (fieldFreq 1) 2 ((plainCall t false).args []) = .ok [g1, g2] ∧
      g1.matrix.at' [0] ≠ 0 ∧ z.matrix.at' [0] = 0 ∧
      ((startHistory (plainCall t false) ⟨[fieldFreq 1], []⟩).run lineSplines (plainCall t false)
        [.write 0 (fieldFreq 0), .next]).2 = [some (.ok (1, z))] := by
  refine ⟨_, _, stepFreq t (fieldFreq 0), (plainCall_propagate t 1).1, stepFreq_ne t (by simp [fieldFreq]), stepFreq_zero t, ?_⟩
  have hp := plainCall_prepare t false 0
  have hc := plainCall_window t false
  simp only [History.run, History.act, startHistory, Gen.next, startGen, plainCall, List.set_cons_zero] at hp hc ⊢
  simp only [List.getElem?_cons_zero, hp, hc, enterLoop]
  rfl

theorem start_vect {spl : Splines ℝ} {c : PropagateCall} {m : Caller} {f : Field ℝ ℂ} {p : Propagation}
    (hf : m.objs[c.field]? = some f) (hp : prepare spl f (c.args m.vect) = .ok p) (hd : c.direction = some true) :
    (startGen spl c m).1.vect = m.vect.map (· / norm2 m.vect) := by
  unfold startGen
  simp only [hf, hp, if_pos hd]
  by_cases hz : c.yieldZerothStep = true
  · rw [if_pos hz]
    obtain ⟨_, _, h⟩ := yieldField_frame spl .zeroth _ _
    exact h
  · rw [if_neg hz]
    obtain ⟨_, _, h⟩ := enterLoop_frame spl c _ _
    exact h

/-- C103: a direction which is given as an array of floats is divided by its length, in the object of the caller. -/
theorem propagate_direction_changed (spl : Splines ℝ) (hspl : ExactOnEven spl) (c : PropagateCall) (m : Caller) (f : Field ℝ ℂ)
    (shape : List ℕ) (state : Bool) (x0 h : ℕ → ℝ) (hf : m.objs[c.field]? = some f) (hg : OnGrid f shape state x0 h)
    (ha : PropagateOk (c.args m.vect) shape.length) (hd : c.direction = some true) (hn : c.nsteps ≠ 0) :
    ((startHistory c m).act spl c .next).1.caller.vect = m.vect.map (· / Real.sqrt ((m.vect.map (· ^ 2)).sum)) := by
  obtain ⟨n, hn⟩ := Nat.exists_eq_succ_of_ne_zero hn
  have hp : ∃ p, prepare spl f (c.args m.vect) = .ok p := by
    cases state with
    | true =>
      obtain ⟨P, h1, _⟩ := prepare_frequency spl hg ha
      exact ⟨_, h1⟩
    | false =>
      obtain ⟨F, F1, F2, _⟩ := hg.fft hspl
      obtain ⟨P, p1, _⟩ := prepare_frequency spl F2 ha
      exact ⟨_, prepare_spatial hg ((fft_none hg).trans F1) F2 p1⟩
  obtain ⟨p, hp⟩ := hp
  simp only [History.act, startHistory, hn, Gen.next]
  exact start_vect hf hp hd

def windowCall : PropagateCall := { field := 0, dt := 1, nsteps := 2, direction := some true }

theorem windowCall_ok : PropagateOk (windowCall.args [3, 4]) 2 := windowArgs_ok 1

/-- C103 violated: the direction `[3, 4]` of the caller becomes `[3/5, 4/5]`. -/
theorem propagate_direction_violated :
    ((startHistory windowCall ⟨[field32At 0 0], [3, 4]⟩).act lineSplines windowCall .next).1.caller.vect = [3 / 5, 4 / 5] := by
  rw [propagate_direction_changed lineSplines lineSplines_exact windowCall ⟨[field32At 0 0], [3, 4]⟩ _ _ _ _ _ rfl
    (field32At_grid 0 0) windowCall_ok rfl (by simp [windowCall])]
  have h5 : Real.sqrt 25 = 5 := by
    rw [show (25 : ℝ) = 5 ^ 2 by norm_num]
    exact Real.sqrt_sq (by norm_num)
  norm_num [h5]

/-! ### Examples -/

/-- A program which spoils all it has after each result. -/
def spoiling (v : ℂ) : List Act :=
  [.write 7 (fieldFreq v), .next, .write 0 (fieldFreq v), .write 1 (fieldFreq v), .turn [], .next, .write 2 (fieldFreq v), .next]

example (v : ℂ) := propagate_history_spatial_partial lineSplines lineSplines_exact windowCall ⟨[field32At 0 0], [3, 4]⟩ _ _ _ _ rfl
  (field32At_grid 0 0) windowCall_ok (spoiling v) (by simp [spoiling, Undisturbed, windowCall])

/-- It asks three times; the third answer is that there are no more results. -/
example (v : ℂ) (a b : ℕ) : asked (spoiling v) = 3 ∧ expected 3 [a, b] = [some a, some b, none] := ⟨rfl, rfl⟩

/-- A program which works with another field. -/
example (t : ℝ) (v : ℂ) := propagate_history_frequency_partial lineSplines lineSplines_exact (plainCall t true)
  ⟨[fieldFreq 1, fieldFreq 2], []⟩ _ _ _ _ rfl (fieldFreq_grid 1) ⟨by simp [PropagateCall.args, plainCall], by simp [PropagateCall.args, plainCall]⟩
  [.write 1 (fieldFreq v), .next, .next, .write 1 (fieldFreq v), .next] (by simp [Undisturbed, plainCall])

example := propagate_error_first lineSplines { field := 0, dt := 1, nsteps := 3, removeAntipropagating := some true }
  ⟨[fieldFreq 1], []⟩ (fieldFreq 1) .valueError rfl (by
    unfold prepare
    simp only [(fieldFreq_grid 1).collective]
    rfl) 5 (by simp)

example (s : History) (h : s.caller = ⟨[fieldFreq 1, fieldFreq 2], [1]⟩) :=
  propagate_overwrites_nothing lineSplines windowCall s 1 (fieldFreq 2) (by rw [h]; rfl)

end

end Postpic.Props
