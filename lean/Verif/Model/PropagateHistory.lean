import Verif.Model.Kspace

/-!
The generator of `kspace_propagate` with `nsteps != 1`, together with the program which uses it: between two results that
program may change the objects it has in its hands. `helper.py:968-1110`.

Objects are addressed by numbers. Objects which only the generator refers to are kept in its state. An assignment into a field
replaces it by any other field. (Fields in the frequency domain also share their `Axis` objects with the fields they have been
computed from; assignments into those are not modelled.)
-/

set_option autoImplicit false

namespace Postpic.Fields

open Postpic.Axes

noncomputable section

/-- What the caller can reach: fields, and the object given as `moving_window_vect`. -/
structure Caller where
  objs : List (Field ℝ ℂ)
  vect : List ℝ

/-- The call `kspace_propagate(field, dt, nsteps, …)`, `field` is an address. `direction`: whether `moving_window_vect` is given,
and whether the object given is an array of floats. `helper.py:1095-1110`. -/
structure PropagateCall where
  field : ℕ
  dt : ℝ
  nsteps : ℕ
  direction : Option Bool := none
  moveWindow : Option Bool := none
  removeAntipropagating : Option Bool := none
  yieldZerothStep : Bool := false

/-- The arguments, as the generator finds them if the object of the direction is `vect` at that time. -/
def PropagateCall.args (c : PropagateCall) (vect : List ℝ) : PropagateArgs :=
  { dt := c.dt
    movingWindowVect := c.direction.map fun _ => vect
    moveWindow := c.moveWindow
    removeAntipropagating := c.removeAntipropagating
    yieldZerothStep := c.yieldZerothStep }

/-- The local variables of the generator. `kspace` refers to an object of its own or to an object of the caller. -/
structure Locals where
  kspace : Field ℝ ℂ ⊕ ℕ
  expIwt : List ℕ → ℂ
  doFft : Bool
  window : Option (List ℝ)

/-- The states of the generator: not started, waiting in the first `yield`, waiting in the `yield` of the loop, finished. -/
inductive Gen where
  | created
  | zeroth (v : Locals)
  | looping (v : Locals)
  | finished

/-- The present value of `kspace`. -/
def Locals.value (v : Locals) (m : Caller) : Res (Field ℝ ℂ) :=
  match v.kspace with
  | .inl f => .ok f
  | .inr a => match m.objs[a]? with
    | some f => .ok f
    | none => .error .undefinedBehaviour

/-- What one `next` gives: the objects of the caller, the state of the generator, and a result (its address), an exception, or
`none` for `StopIteration`. -/
abbrev Outcome := Caller × Gen × Option (Res ℕ)

/-- `yield kspace.fft()`, a new object, or `yield kspace`, the object itself, which the caller gets to know.
`helper.py:1069-1073, 1090-1093`. -/
def yieldField (spl : Splines ℝ) (state : Locals → Gen) (v : Locals) (m : Caller) : Outcome :=
  if v.doFft then
    match (do (← v.value m).fft spl none "spatial" false : Res (Field ℝ ℂ)) with
    | .error e => (m, .finished, some (.error e))
    | .ok g => ({ m with objs := m.objs ++ [g] }, state v, some (.ok m.objs.length))
  else
    match v.kspace with
    | .inl f => ({ m with objs := m.objs ++ [f] }, state { v with kspace := .inr m.objs.length }, some (.ok m.objs.length))
    | .inr a => (m, state v, some (.ok a))

/-- `kspace = kspace.replace_data(kspace * exp_iwt)` and the motion of the window. `helper.py:1080-1088`. -/
def Locals.step (dt : ℝ) (v : Locals) (f : Field ℝ ℂ) : Res (Field ℝ ℂ) := do
  let k := f.withData fun idx => f.matrix.at' idx * v.expIwt idx
  match v.window with
  | none => return k
  | some u => do
    let tao ← addOrigins (u.zipIdx.map fun (q : ℝ × ℕ) => ((q.2 : ℤ), lightSpeed * dt * q.1)) k.tao
    return { k with tao := tao }

/-- The loop up to its next `yield`. `helper.py:1079-1093`. -/
def resumeLoop (spl : Splines ℝ) (c : PropagateCall) (v : Locals) (m : Caller) : Outcome :=
  match (do v.step c.dt (← v.value m) : Res (Field ℝ ℂ)) with
  | .error e => (m, .finished, some (.error e))
  | .ok k => yieldField spl .looping { v with kspace := .inl k } m

/-- The part between the first `yield` and the loop. `helper.py:1075-1077`. -/
def enterLoop (spl : Splines ℝ) (c : PropagateCall) (v : Locals) (m : Caller) : Outcome :=
  match checkWindow (c.args m.vect) with
  | .error e => (m, .finished, some (.error e))
  | .ok () => resumeLoop spl c v m

/-- The start of the generator. `moving_window_vect /= norm` changes the object of the caller if `np.asarray` has not copied it.
Without a transform and without a removal of waves `kspace` is the object of the caller. `helper.py:1006-1077`. -/
def startGen (spl : Splines ℝ) (c : PropagateCall) (m : Caller) : Outcome :=
  match m.objs[c.field]? with
  | none => (m, .finished, some (.error .undefinedBehaviour))
  | some f =>
    match prepare spl f (c.args m.vect) with
    | .error e => (m, .finished, some (.error e))
    | .ok p =>
      let m1 := if c.direction = some true then { m with vect := m.vect.map (· / norm2 m.vect) } else m
      let removed := c.removeAntipropagating.getD c.direction.isSome
      let v : Locals :=
        { kspace := if p.doFft || removed then .inl p.kspace else .inr c.field
          expIwt := Fields.expIwt p.kspace.axes c.dt
          doFft := p.doFft
          window := p.window }
      if c.yieldZerothStep then yieldField spl .zeroth v m1 else enterLoop spl c v m1

/-- `next` on the generator. -/
def Gen.next (spl : Splines ℝ) (c : PropagateCall) (m : Caller) : Gen → Outcome
  | .created => startGen spl c m
  | .zeroth v => enterLoop spl c v m
  | .looping v => resumeLoop spl c v m
  | .finished => (m, .finished, none)

/-- The whole program: the objects of the caller, the generator, and how many results `islice` still lets pass. -/
structure History where
  caller : Caller
  gen : Gen
  left : ℕ

/-- What the program does: `next` on the result of `kspace_propagate`; an assignment into a field it knows; an assignment into
the object of the direction. -/
inductive Act where
  | next
  | write (a : ℕ) (f : Field ℝ ℂ)
  | turn (v : List ℝ)

/-- `kspace_propagate(…)` with `nsteps != 1`: nothing is computed. `helper.py:1105-1110`. -/
def startHistory (c : PropagateCall) (m : Caller) : History := ⟨m, .created, c.nsteps⟩

/-- One action, and what a `next` returns: the address and the present value of the result, or an exception, or `none` for
`StopIteration`. -/
def History.act (spl : Splines ℝ) (c : PropagateCall) (s : History) : Act → History × List (Option (Res (ℕ × Field ℝ ℂ)))
  | .next =>
    match s.left with
    | 0 => (s, [none])
    | n + 1 =>
      let r := s.gen.next spl c s.caller
      (⟨r.1, r.2.1, n⟩, [r.2.2.map fun x => do
        let a ← x
        match r.1.objs[a]? with
        | some g => .ok (a, g)
        | none => .error .undefinedBehaviour])
  | .write a f =>
    ({ s with caller := { s.caller with objs := s.caller.objs.set a f } }, [])
  | .turn v => ({ s with caller := { s.caller with vect := v } }, [])

/-- A sequence of actions. -/
def History.run (spl : Splines ℝ) (c : PropagateCall) : History → List Act → History × List (Option (Res (ℕ × Field ℝ ℂ)))
  | s, [] => (s, [])
  | s, x :: xs =>
    let r := s.act spl c x
    let r' := History.run spl c r.1 xs
    (r'.1, r.2 ++ r'.2)

end

end Postpic.Fields
