import Verif.Spec.PropagateHistory
import Verif.Lemmas.Propagate

/-! Lemmas about the generator of `kspace_propagate` and the program which uses it. -/

set_option autoImplicit false

namespace Postpic.Fields

open Postpic Postpic.Axes Postpic.Spec

noncomputable section

/-! ### Nothing is overwritten -/

theorem yieldField_frame (spl : Splines ℝ) (st : Locals → Gen) (v : Locals) (m : Caller) :
    ∃ new, (yieldField spl st v m).1.objs = m.objs ++ new ∧ (yieldField spl st v m).1.vect = m.vect := by
  unfold yieldField
  split_ifs
  · split
    · exact ⟨[], by simp, rfl⟩
    · exact ⟨_, rfl, rfl⟩
  · split
    · exact ⟨_, rfl, rfl⟩
    · exact ⟨[], by simp, rfl⟩

theorem resumeLoop_frame (spl : Splines ℝ) (c : PropagateCall) (v : Locals) (m : Caller) :
    ∃ new, (resumeLoop spl c v m).1.objs = m.objs ++ new ∧ (resumeLoop spl c v m).1.vect = m.vect := by
  unfold resumeLoop
  split
  · exact ⟨[], by simp, rfl⟩
  · exact yieldField_frame _ _ _ _

theorem enterLoop_frame (spl : Splines ℝ) (c : PropagateCall) (v : Locals) (m : Caller) :
    ∃ new, (enterLoop spl c v m).1.objs = m.objs ++ new ∧ (enterLoop spl c v m).1.vect = m.vect := by
  unfold enterLoop
  split
  · exact ⟨[], by simp, rfl⟩
  · exact resumeLoop_frame _ _ _ _

theorem startGen_frame (spl : Splines ℝ) (c : PropagateCall) (m : Caller) :
    ∃ new, (startGen spl c m).1.objs = m.objs ++ new ∧
      (c.direction ≠ some true → (startGen spl c m).1.vect = m.vect) := by
  unfold startGen
  split
  · exact ⟨[], by simp, fun _ => rfl⟩
  · split
    · exact ⟨[], by simp, fun _ => rfl⟩
    · simp only
      set m1 : Caller := if c.direction = some true then { m with vect := m.vect.map (· / norm2 m.vect) } else m with hm
      have ho : m1.objs = m.objs := by
        rw [hm]
        split_ifs <;> rfl
      have hv : c.direction ≠ some true → m1.vect = m.vect := by
        intro h
        rw [hm, if_neg h]
      by_cases hz : c.yieldZerothStep = true
      · simp only [if_pos hz]
        obtain ⟨new, h1, h2⟩ := yieldField_frame spl .zeroth _ m1
        exact ⟨new, by rw [h1, ho], fun h => by rw [h2, hv h]⟩
      · simp only [if_neg hz]
        obtain ⟨new, h1, h2⟩ := enterLoop_frame spl c _ m1
        exact ⟨new, by rw [h1, ho], fun h => by rw [h2, hv h]⟩

theorem next_frame (spl : Splines ℝ) (c : PropagateCall) (m : Caller) (g : Gen) :
    ∃ new, (g.next spl c m).1.objs = m.objs ++ new ∧ (c.direction ≠ some true → (g.next spl c m).1.vect = m.vect) := by
  cases g with
  | created => exact startGen_frame spl c m
  | zeroth v =>
    obtain ⟨new, h1, h2⟩ := enterLoop_frame spl c v m
    exact ⟨new, h1, fun _ => h2⟩
  | looping v =>
    obtain ⟨new, h1, h2⟩ := resumeLoop_frame spl c v m
    exact ⟨new, h1, fun _ => h2⟩
  | finished => exact ⟨[], by simp [Gen.next], fun _ => rfl⟩

/-! ### Independence of the caller -/

/-- What the generator still has to give, if nothing interferes. -/
structure Runs (spl : Splines ℝ) (c : PropagateCall) (v : Locals) (m : Caller) (p : Propagation) (n : ℕ)
    (rest : List (Field ℝ ℂ)) : Prop where
  value : v.value m = .ok p.kspace
  phase : v.expIwt = Fields.expIwt p.kspace.axes c.dt
  fft : v.doFft = p.doFft
  window : v.window = p.window
  loop : propagateLoop spl c.dt n p = .ok rest

/-- The object `kspace` refers to is not among those the caller may change. -/
def Hidden (c : PropagateCall) (old : ℕ) (v : Locals) : Prop :=
  match v.kspace with
  | .inl _ => True
  | .inr a => v.doFft = false ∧ (a = c.field ∨ old ≤ a)

theorem step_eq {c : PropagateCall} {v : Locals} {p : Propagation} (h1 : v.expIwt = Fields.expIwt p.kspace.axes c.dt)
    (h2 : v.window = p.window) :
    propagateStep c.dt p = (v.step c.dt p.kspace).map fun k => { p with kspace := k } := by
  unfold propagateStep Locals.step
  rw [h1, h2]
  cases p.window with
  | none => rfl
  | some u =>
    simp only [bind, Except.bind, pure, Except.pure]
    cases addOrigins (u.zipIdx.map fun (q : ℝ × ℕ) => ((q.2 : ℤ), lightSpeed * c.dt * q.1))
      (p.kspace.withData fun idx => p.kspace.matrix.at' idx * Fields.expIwt p.kspace.axes c.dt idx).tao <;> rfl

theorem step_axes {dt : ℝ} {v : Locals} {f k : Field ℝ ℂ} (h : v.step dt f = .ok k) : k.axes = f.axes := by
  unfold Locals.step at h
  cases hw : v.window with
  | none =>
    rw [hw] at h
    simp only [pure, Except.pure, Except.ok.injEq] at h
    rw [← h]
    rfl
  | some u =>
    rw [hw] at h
    obtain ⟨t, _, h⟩ := bind_ok h
    simp only [pure, Except.pure, Except.ok.injEq] at h
    rw [← h]
    rfl

/-- One `yield` of the generator hands out the value of the pure computation. -/
theorem yield_ok {spl : Splines ℝ} {c : PropagateCall} {v : Locals} {m : Caller} {p : Propagation} {old : ℕ} {g : Field ℝ ℂ}
    (st : Locals → Gen) (hold : old ≤ m.objs.length) (hv : v.value m = .ok p.kspace) (hf : v.doFft = p.doFft)
    (hh : Hidden c old v) (ho : p.output spl = .ok g) :
    ∃ m' v' a, yieldField spl st v m = (m', st v', some (.ok a)) ∧ m'.objs[a]? = some g ∧ v'.value m' = .ok p.kspace ∧
      v'.expIwt = v.expIwt ∧ v'.doFft = v.doFft ∧ v'.window = v.window ∧ Hidden c old v' ∧ m.objs.length ≤ m'.objs.length ∧
      (v.doFft = true → a = m.objs.length ∧ v'.kspace = v.kspace ∧ m'.objs.length = m.objs.length + 1) := by
  unfold Propagation.output at ho
  unfold yieldField
  cases hd : v.doFft with
  | true =>
    rw [← hf, hd] at ho
    simp only [if_true] at ho
    simp only [if_true, hv, bind, Except.bind, ho]
    have hk : ∃ f, v.kspace = .inl f := by
      unfold Hidden at hh
      cases hk : v.kspace with
      | inl f => exact ⟨f, rfl⟩
      | inr a =>
        rw [hk] at hh
        simp only at hh
        rw [hd] at hh
        exact absurd hh.1 (by simp)
    obtain ⟨f, hk⟩ := hk
    refine ⟨_, v, _, rfl, by simp, ?_, rfl, hd, rfl, hh, by simp, fun _ => ⟨rfl, rfl, by simp⟩⟩
    unfold Locals.value at hv ⊢
    rw [hk] at hv ⊢
    exact hv
  | false =>
    rw [← hf, hd] at ho
    simp only [Bool.false_eq_true, if_false, Except.ok.injEq] at ho
    simp only [Bool.false_eq_true, if_false]
    cases hk : v.kspace with
    | inl f =>
      have hfg : f = p.kspace := by
        unfold Locals.value at hv
        rw [hk] at hv
        exact Except.ok.inj hv
      refine ⟨_, _, _, rfl, by simp [hfg, ho], ?_, rfl, rfl, rfl, ⟨rfl, Or.inr hold⟩, by simp, by simp⟩
      simp [Locals.value, hfg]
    | inr a =>
      refine ⟨m, v, a, rfl, ?_, hv, rfl, hd, rfl, hh, le_refl _, by simp⟩
      unfold Locals.value at hv
      rw [hk] at hv
      simp only at hv
      cases hm : m.objs[a]? with
      | none =>
        rw [hm] at hv
        cases hv
      | some f =>
        rw [hm] at hv
        rw [← ho, Except.ok.inj hv]

/-- One run of the loop. -/
theorem resume_ok {spl : Splines ℝ} {c : PropagateCall} {v : Locals} {m : Caller} {p : Propagation} {old n : ℕ}
    {rest : List (Field ℝ ℂ)} (hold : old ≤ m.objs.length) (hr : Runs spl c v m p (n + 1) rest) :
    ∃ g rest', rest = g :: rest' ∧ ∃ m' v' p' a, resumeLoop spl c v m = (m', .looping v', some (.ok a)) ∧
      m'.objs[a]? = some g ∧ Runs spl c v' m' p' n rest' ∧ Hidden c old v' ∧ v'.doFft = v.doFft ∧
      m.objs.length ≤ m'.objs.length ∧ (v.doFft = true → a = m.objs.length ∧ m'.objs.length = m.objs.length + 1) := by
  have hl := hr.loop
  unfold propagateLoop at hl
  obtain ⟨p', hp', hl⟩ := bind_ok hl
  obtain ⟨g, hg, hl⟩ := bind_ok hl
  obtain ⟨rest', hrest, hl⟩ := bind_ok hl
  simp only [pure, Except.pure, Except.ok.injEq] at hl
  rw [step_eq hr.phase hr.window] at hp'
  cases hs : v.step c.dt p.kspace with
  | error e =>
    rw [hs] at hp'
    cases hp'
  | ok k =>
    rw [hs] at hp'
    have hp' : { p with kspace := k } = p' := Except.ok.inj hp'
    have hax := step_axes hs
    obtain ⟨m', v', a, h1, h2, h3, h4, h5, h6, h7, h8, h9⟩ := yield_ok (c := c) (v := { v with kspace := .inl k }) (m := m)
      (p := p') (old := old) .looping hold (by rw [← hp']; rfl) (by rw [← hp']; exact hr.fft) trivial hg
    refine ⟨g, rest', hl.symm, m', v', p', a, ?_, h2, ⟨h3, ?_, ?_, ?_, hrest⟩, h7, h5, h8, fun hd => ?_⟩
    · unfold resumeLoop
      simp only [hr.value, bind, Except.bind, hs]
      exact h1
    · rw [h4, ← hp']
      simp only [hax]
      exact hr.phase
    · rw [h5, ← hp']
      exact hr.fft
    · rw [h6, ← hp']
      exact hr.window
    · exact ⟨(h9 hd).1, (h9 hd).2.2⟩

theorem enter_ok {spl : Splines ℝ} {c : PropagateCall} {v : Locals} {m : Caller}
    (hc : checkWindow (c.args []) = .ok ()) : enterLoop spl c v m = resumeLoop spl c v m := by
  have : checkWindow (c.args m.vect) = checkWindow (c.args []) := by
    unfold checkWindow PropagateCall.args
    cases c.direction <;> rfl
  unfold enterLoop
  rw [this, hc]

/-- The state of a program between two actions, `rest` being what is still to be expected. -/
def Good (spl : Splines ℝ) (c : PropagateCall) (spatial : Bool) (old : ℕ) (s : History) (rest : List (Field ℝ ℂ)) : Prop :=
  old ≤ s.caller.objs.length ∧ match s.gen with
  | .created => ∃ f, s.caller.objs[c.field]? = some f ∧ c.field < old ∧ propagate spl f s.left (c.args s.caller.vect) = .ok rest ∧
      (collectiveState f.ats f.rangeDims = .ok (some !spatial))
  | .zeroth v => (∃ p, Runs spl c v s.caller p s.left rest) ∧ Hidden c old v ∧ v.doFft = spatial ∧
      (s.left ≠ 0 → checkWindow (c.args []) = .ok ())
  | .looping v => (∃ p, Runs spl c v s.caller p s.left rest) ∧ Hidden c old v ∧ v.doFft = spatial
  | .finished => s.left = 0 ∧ rest = []

def started (s : History) : Bool :=
  match s.gen with
  | .created => false
  | _ => true

theorem runs_zero {spl : Splines ℝ} {c : PropagateCall} {v : Locals} {m : Caller} {p : Propagation}
    {rest : List (Field ℝ ℂ)} (h : Runs spl c v m p 0 rest) : rest = [] := by
  have := h.loop
  unfold propagateLoop at this
  exact (Except.ok.inj this).symm

theorem prepare_fft {spl : Splines ℝ} {f : Field ℝ ℂ} {a : PropagateArgs} {p : Propagation} {b : Bool}
    (hs : collectiveState f.ats f.rangeDims = .ok (some b)) (hp : prepare spl f a = .ok p) : p.doFft = !b := by
  unfold prepare at hp
  simp only [hs, bind, Except.bind, pure, Except.pure] at hp
  repeat' split at hp
  all_goals first
    | (cases hp; done)
    | rw [← Except.ok.inj hp]

/-- Without a transform and a removal `kspace` is the given field. -/
theorem prepare_same {spl : Splines ℝ} {f : Field ℝ ℂ} {a : PropagateArgs} {p : Propagation}
    (hs : collectiveState f.ats f.rangeDims = .ok (some true)) (hp : prepare spl f a = .ok p)
    (hr : a.removeAntipropagating.getD a.movingWindowVect.isSome = false) : p.kspace = f := by
  unfold prepare at hp
  simp only [hs, bind, Except.bind, pure, Except.pure, if_true] at hp
  cases hv : a.movingWindowVect with
  | none =>
    rw [hv] at hr
    simp only [hv, Option.isSome_none] at hp hr
    simp only [hr, Bool.false_eq_true, if_false] at hp
    rw [← Except.ok.inj hp]
  | some v =>
    rw [hv] at hr
    simp only [hv] at hp
    simp only [Option.isSome_some] at hp hr
    by_cases h1 : (v.length : ℤ) ≠ f.dims
    · rw [if_pos h1] at hp
      cases hp
    · by_cases h2 : norm2 v = 0
      · rw [if_neg h1, if_pos h2] at hp
        cases hp
      · rw [if_neg h1, if_neg h2, hr] at hp
        simp only [Bool.false_eq_true, if_false] at hp
        rw [← Except.ok.inj hp]

/-- With the generator started, the first result is the first one of the pure computation. -/
theorem start_ok {spl : Splines ℝ} {c : PropagateCall} {spatial : Bool} {old n : ℕ} {m : Caller} {f : Field ℝ ℂ}
    {rest : List (Field ℝ ℂ)} (hold : old ≤ m.objs.length) (hf : m.objs[c.field]? = some f)
    (hp : propagate spl f (n + 1) (c.args m.vect) = .ok rest)
    (hs : collectiveState f.ats f.rangeDims = .ok (some !spatial)) :
    ∃ g rest', rest = g :: rest' ∧ ∃ m' gen a, startGen spl c m = (m', gen, some (.ok a)) ∧ m'.objs[a]? = some g ∧
      Good spl c spatial old ⟨m', gen, n⟩ rest' ∧ gen ≠ .created ∧
      (spatial = true → a = m.objs.length ∧ m'.objs.length = m.objs.length + 1) := by
  unfold propagate at hp
  simp only at hp
  obtain ⟨p, hprep, hp⟩ := bind_ok hp
  have hd : p.doFft = spatial := by
    rw [prepare_fft hs hprep, Bool.not_not]
  have hcw : checkWindow (c.args m.vect) = checkWindow (c.args []) := by
    unfold checkWindow PropagateCall.args
    cases c.direction <;> rfl
  unfold startGen
  simp only [hf, hprep]
  set m1 : Caller := if c.direction = some true then { m with vect := m.vect.map (· / norm2 m.vect) } else m with hm
  have hmo : m1.objs = m.objs := by
    rw [hm]
    split_ifs <;> rfl
  set v : Locals :=
        { kspace := if p.doFft || c.removeAntipropagating.getD c.direction.isSome then .inl p.kspace else .inr c.field
          expIwt := Fields.expIwt p.kspace.axes c.dt
          doFft := p.doFft
          window := p.window } with hv
  have hval : v.value m1 = .ok p.kspace := by
    by_cases hr : (p.doFft || c.removeAntipropagating.getD c.direction.isSome) = true
    · simp only [hv, if_pos hr, Locals.value]
    · simp only [hv, if_neg hr, Locals.value, hmo, hf]
      simp only [Bool.or_eq_true, not_or, Bool.not_eq_true] at hr
      rw [hd] at hr
      rw [hr.1] at hs
      rw [prepare_same hs hprep]
      unfold PropagateCall.args
      simp only [Option.isSome_map]
      exact hr.2
  have hhid : Hidden c old v := by
    by_cases hr : (p.doFft || c.removeAntipropagating.getD c.direction.isSome) = true
    · simp only [hv, if_pos hr, Hidden]
    · simp only [hv, if_neg hr, Hidden]
      simp only [Bool.or_eq_true, not_or, Bool.not_eq_true] at hr
      exact ⟨hr.1, Or.inl trivial⟩
  have hold1 : old ≤ m1.objs.length := by rw [hmo]; exact hold
  have hz : (c.args m.vect).yieldZerothStep = c.yieldZerothStep := rfl
  rw [hz] at hp
  by_cases hy : c.yieldZerothStep = true
  · rw [if_pos hy] at hp ⊢
    obtain ⟨z, hout, hp⟩ := bind_ok hp
    obtain ⟨m', v', a, h1, h2, h3, h4, h5, h6, h7, h8, h9⟩ := yield_ok (c := c) .zeroth hold1 hval rfl hhid hout
    have key : ∃ rest', rest = z :: rest' ∧ propagateLoop spl c.dt n p = .ok rest' ∧
        (n ≠ 0 → checkWindow (c.args []) = .ok ()) := by
      by_cases hn : n = 0
      · subst hn
        simp only [if_true, pure, Except.pure, Except.ok.injEq] at hp
        exact ⟨[], hp.symm, rfl, fun h => absurd rfl h⟩
      · rw [if_neg hn] at hp
        obtain ⟨_, hc, hp⟩ := bind_ok hp
        obtain ⟨l, hl, hp⟩ := bind_ok hp
        simp only [pure, Except.pure, Except.ok.injEq] at hp
        exact ⟨l, hp.symm, hl, fun _ => by rw [← hcw]; exact hc⟩
    obtain ⟨rest', hr', hl, hc⟩ := key
    refine ⟨z, rest', hr', m', .zeroth v', a, h1, h2, ⟨hold1.trans h8, ⟨p, h3, ?_, ?_, ?_, hl⟩, h7, ?_, hc⟩, by simp, ?_⟩
    · rw [h4]
    · rw [h5]
    · rw [h6]
    · rw [h5]
      exact hd
    · intro hsp
      have := h9 (by rw [← hsp]; exact hd)
      rw [← hmo]
      exact ⟨this.1, this.2.2⟩
  · rw [if_neg hy] at hp ⊢
    obtain ⟨_, hc, hp⟩ := bind_ok hp
    obtain ⟨g, rest', hr', m', v', p', a, h1, h2, h3, h4, h5, h6, h7⟩ :=
      resume_ok (c := c) (v := v) (m := m1) (p := p) (old := old) (n := n) hold1 ⟨hval, rfl, rfl, rfl, hp⟩
    refine ⟨g, rest', hr', m', .looping v', a, ?_, h2, ⟨hold1.trans h6, ⟨p', h3⟩, h4, ?_⟩, by simp, ?_⟩
    · rw [enter_ok (by rw [← hcw]; exact hc)]
      exact h1
    · rw [h5]
      exact hd
    · intro hsp
      rw [← hmo]
      exact h7 (by rw [← hsp]; exact hd)

theorem good_zero {spl : Splines ℝ} {c : PropagateCall} {spatial : Bool} {old : ℕ} {s : History}
    {rest : List (Field ℝ ℂ)} (h : Good spl c spatial old s rest) (h0 : s.left = 0) : rest = [] := by
  obtain ⟨m, g, n⟩ := s
  obtain rfl : n = 0 := h0
  cases g with
  | created =>
    obtain ⟨_, f, _, _, h, _⟩ := h
    unfold propagate at h
    exact (Except.ok.inj h).symm
  | zeroth v =>
    obtain ⟨_, ⟨p, h⟩, _⟩ := h
    exact runs_zero h
  | looping v =>
    obtain ⟨_, ⟨p, h⟩, _⟩ := h
    exact runs_zero h
  | finished => exact h.2.2

/-- One `next`. -/
theorem good_next {spl : Splines ℝ} {c : PropagateCall} {spatial : Bool} {old n : ℕ} {s : History}
    {rest : List (Field ℝ ℂ)} (h : Good spl c spatial old s rest) (hn : s.left = n + 1) :
    ∃ g rest', rest = g :: rest' ∧ ∃ s' a, s.act spl c .next = (s', [some (.ok (a, g))]) ∧
      Good spl c spatial old s' rest' ∧ started s' = true ∧
      (spatial = true → a = s.caller.objs.length ∧ s'.caller.objs.length = s.caller.objs.length + 1) := by
  obtain ⟨m, gen, left⟩ := s
  obtain rfl : left = n + 1 := hn
  have key : ∃ g rest', rest = g :: rest' ∧ ∃ m' gen' a, gen.next spl c m = (m', gen', some (.ok a)) ∧ m'.objs[a]? = some g ∧
      Good spl c spatial old ⟨m', gen', n⟩ rest' ∧ gen' ≠ .created ∧
      (spatial = true → a = m.objs.length ∧ m'.objs.length = m.objs.length + 1) := by
    cases gen with
    | created =>
      obtain ⟨hold, f, hf, _, hp, hs⟩ := h
      exact start_ok hold hf hp hs
    | zeroth v =>
      obtain ⟨hold, ⟨p, hr⟩, hh, hd, hc⟩ := h
      obtain ⟨g, rest', hr', m', v', p', a, h1, h2, h3, h4, h5, h6, h7⟩ := resume_ok hold hr
      exact ⟨g, rest', hr', m', .looping v', a, by rw [← h1]; exact enter_ok (hc (by simp)), h2,
        ⟨hold.trans h6, ⟨p', h3⟩, h4, h5.trans hd⟩, by simp, fun hsp => h7 (hd.trans hsp)⟩
    | looping v =>
      obtain ⟨hold, ⟨p, hr⟩, hh, hd⟩ := h
      obtain ⟨g, rest', hr', m', v', p', a, h1, h2, h3, h4, h5, h6, h7⟩ := resume_ok hold hr
      exact ⟨g, rest', hr', m', .looping v', a, h1, h2,
        ⟨hold.trans h6, ⟨p', h3⟩, h4, h5.trans hd⟩, by simp, fun hsp => h7 (hd.trans hsp)⟩
    | finished => exact absurd h.2.1 (by simp)
  obtain ⟨g, rest', hr', m', gen', a, h1, h2, h3, h4, h5⟩ := key
  refine ⟨g, rest', hr', ⟨m', gen', n⟩, a, ?_, h3, ?_, h5⟩
  · unfold History.act
    simp only [h1, Option.map_some, bind, Except.bind, h2]
  · cases gen' with
    | created => exact absurd rfl h4
    | zeroth _ => rfl
    | looping _ => rfl
    | finished => rfl

/-- An action which is allowed does not disturb. -/
theorem good_write {spl : Splines ℝ} {c : PropagateCall} {spatial : Bool} {old : ℕ} {s : History}
    {rest : List (Field ℝ ℂ)} (h : Good spl c spatial old s rest) (a : ℕ) (f : Field ℝ ℂ)
    (ha : if started s then spatial = true ∨ a ≠ c.field ∧ a < old else a ≠ c.field) :
    Good spl c spatial old (s.act spl c (.write a f)).1 rest ∧
      started (s.act spl c (.write a f)).1 = started s := by
  obtain ⟨m, gen, left⟩ := s
  refine ⟨?_, rfl⟩
  have keep : ∀ v : Locals, Hidden c old v → v.doFft = spatial → (spatial = true ∨ a ≠ c.field ∧ a < old) →
      v.value { m with objs := m.objs.set a f } = v.value m := by
    intro v hh hd ha
    unfold Hidden at hh
    unfold Locals.value
    cases hk : v.kspace with
    | inl _ => rfl
    | inr b =>
      rw [hk] at hh
      simp only at hh ⊢
      have hab : a ≠ b := by
        rcases ha with hsp | ⟨h1, h2⟩
        · rw [hd, hsp] at hh
          exact absurd hh.1 (by simp)
        · rcases hh.2 with rfl | hb
          · exact h1
          · omega
      rw [List.getElem?_set_ne hab]
  have hlen : (m.objs.set a f).length = m.objs.length := List.length_set
  cases gen with
  | created =>
    obtain ⟨hold, g, hg, hlt, hp, hs⟩ := h
    refine ⟨by rw [History.act]; simpa using hold, g, ?_, hlt, hp, hs⟩
    have ha : a ≠ c.field := by simpa [started] using ha
    simp only [History.act]
    rw [List.getElem?_set_ne ha]
    exact hg
  | zeroth v =>
    obtain ⟨hold, ⟨p, hr⟩, hh, hd, hc⟩ := h
    refine ⟨by rw [History.act]; simpa using hold, ⟨p, ?_, hr.phase, hr.fft, hr.window, hr.loop⟩, hh, hd, hc⟩
    exact (keep v hh hd (by simpa [started] using ha)).trans hr.value
  | looping v =>
    obtain ⟨hold, ⟨p, hr⟩, hh, hd⟩ := h
    refine ⟨by rw [History.act]; simpa using hold, ⟨p, ?_, hr.phase, hr.fft, hr.window, hr.loop⟩, hh, hd⟩
    exact (keep v hh hd (by simpa [started] using ha)).trans hr.value
  | finished => exact ⟨by rw [History.act]; simpa using h.1, h.2⟩

theorem good_turn {spl : Splines ℝ} {c : PropagateCall} {spatial : Bool} {old : ℕ} {s : History}
    {rest : List (Field ℝ ℂ)} (h : Good spl c spatial old s rest) (u : List ℝ) (hs : started s = true) :
    Good spl c spatial old (s.act spl c (.turn u)).1 rest ∧ started (s.act spl c (.turn u)).1 = true := by
  obtain ⟨m, gen, left⟩ := s
  refine ⟨?_, hs⟩
  cases gen with
  | created => exact absurd hs (by simp [started])
  | zeroth v =>
    obtain ⟨hold, ⟨p, hr⟩, hh, hd, hc⟩ := h
    exact ⟨hold, ⟨p, hr.value, hr.phase, hr.fft, hr.window, hr.loop⟩, hh, hd, hc⟩
  | looping v =>
    obtain ⟨hold, ⟨p, hr⟩, hh, hd⟩ := h
    exact ⟨hold, ⟨p, hr.value, hr.phase, hr.fft, hr.window, hr.loop⟩, hh, hd⟩
  | finished => exact h

theorem expected_nil {α : Type} (n : ℕ) : expected (n + 1) ([] : List α) = none :: expected n [] := by
  unfold expected
  rw [List.range_succ_eq_map]
  simp [Function.comp_def]

theorem expected_cons {α : Type} (n : ℕ) (x : α) (l : List α) :
    expected (n + 1) (x :: l) = some x :: expected n l := by
  unfold expected
  rw [List.range_succ_eq_map]
  simp [Function.comp_def]

theorem act_next_zero {spl : Splines ℝ} {c : PropagateCall} {s : History} (h : s.left = 0) :
    s.act spl c .next = (s, [none]) := by
  unfold History.act
  simp only [h]

theorem run_zero {spl : Splines ℝ} {c : PropagateCall} (acts : List Act) :
    ∀ s : History, s.left = 0 → (s.run spl c acts).2 = expected (asked acts) [] := by
  induction acts with
  | nil => intro s _; rfl
  | cons x acts ih =>
    intro s hs
    unfold History.run
    cases x with
    | next =>
      simp only [act_next_zero hs, asked, expected_nil, ih s hs]
      rfl
    | write a f => exact ih _ hs
    | turn u => exact ih _ hs

theorem run_good {spl : Splines ℝ} {c : PropagateCall} {spatial : Bool} {old : ℕ} (acts : List Act) :
    ∀ (s : History) (rest : List (Field ℝ ℂ)) (st : Bool), Good spl c spatial old s rest →
      (s.left ≠ 0 → started s = st) → Undisturbed spatial c.field old st acts →
      (s.run spl c acts).2.map (Option.map (Except.map Prod.snd)) = expected (asked acts) (rest.map .ok) ∧
      (spatial = true → (s.run spl c acts).2 =
        expected (asked acts) ((rest.zipIdx s.caller.objs.length).map fun q => .ok (q.2, q.1))) := by
  induction acts with
  | nil =>
    intro s rest st _ _ _
    exact ⟨rfl, fun _ => rfl⟩
  | cons x acts ih =>
    intro s rest st hg hst hu
    cases hl : s.left with
    | zero =>
      obtain rfl := good_zero hg hl
      rw [run_zero _ s hl]
      refine ⟨?_, fun _ => rfl⟩
      unfold expected
      simp
    | succ n =>
      have hst := hst (by omega)
      cases x with
      | next =>
        have hu : Undisturbed spatial c.field old true acts := by cases st <;> exact hu
        obtain ⟨g, rest', rfl, s', a, h1, h2, h3, h4⟩ := good_next hg hl
        obtain ⟨i1, i2⟩ := ih s' rest' true h2 (fun _ => h3) hu
        unfold History.run
        simp only [h1, asked, List.map_cons, List.zipIdx_cons, expected_cons]
        refine ⟨?_, fun hsp => ?_⟩
        · rw [List.map_append, i1]
          rfl
        · rw [i2 hsp, (h4 hsp).1, (h4 hsp).2]
          rfl
      | write a f =>
        have hu' : (if started s then spatial = true ∨ a ≠ c.field ∧ a < old else a ≠ c.field) ∧
            Undisturbed spatial c.field old st acts := by
          rw [hst]
          cases st <;> exact hu
        obtain ⟨h1, h2⟩ := good_write hg a f hu'.1
        obtain ⟨i1, i2⟩ := ih _ rest st h1 (fun _ => h2.trans hst) hu'.2
        refine ⟨i1, fun hsp => ?_⟩
        have hlen : (s.act spl c (.write a f)).1.caller.objs.length = s.caller.objs.length := by
          simp [History.act]
        rw [← hlen]
        exact i2 hsp
      | turn u =>
        cases st with
        | false => exact absurd hu id
        | true =>
          obtain ⟨h1, h2⟩ := good_turn hg u hst
          exact ih _ rest true h1 (fun _ => h2) hu

end

end Postpic.Fields
