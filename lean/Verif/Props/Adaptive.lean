import Mathlib.Tactic.IntervalCases
import Verif.Lemmas.Adaptive
import Verif.Props.Autocut
import Verif.Props.FftPad
import Verif.Props.Propagate

/-!
# Adaptive propagation
-/

set_option autoImplicit false

namespace Postpic.Props

open Postpic Postpic.Axes Postpic.Fields Postpic.Spec

noncomputable section

/-! ## C99: one step -/

/-- What happens to the field `f` in one step over the distance `D` along the dimension `d`: it is embedded in `P`, with room for the
distance on both sides along all the other dimensions, and `g` is the propagated field, on a grid moved by the distance. -/
structure Stepped (spl : Splines ℝ) (f P g : Field ℝ ℂ) (shape shape' off : List ℕ) (x0 h : ℕ → ℝ) (d : ℕ) (D : ℝ) : Prop where
  embedded : Embedded f.matrix P.matrix off
  labels : P.name = f.name ∧ P.unit = f.unit
  grid : OnGrid P shape' false (fun e => x0 e - off.getD e 0 * h e) h
  room : ∀ e < shape.length, e ≠ d → D ≤ off.getD e 0 * h e ∧
    D ≤ ((shape'.getD e 0 : ℝ) - off.getD e 0 - shape.getD e 0) * h e
  propagated : propagate spl P 1 { dt := D / lightSpeed, movingWindowVect := some ((List.replicate shape.length 0).set d 1) } = .ok [g]
  moved : OnGrid g shape' false (fun e => x0 e - off.getD e 0 * h e + if e = d then D else 0) h

theorem vect_ok (N d : ℕ) (hd : d < N) (dt : ℝ) :
    PropagateOk { dt := dt, movingWindowVect := some ((List.replicate N 0).set d 1) } N := by
  refine ⟨?_, by simp⟩
  intro u hu
  simp only [Option.some.injEq] at hu
  subst hu
  refine ⟨by simp, 1, ?_, one_ne_zero⟩
  apply List.mem_of_getElem? (i := d)
  rw [List.getElem?_set]
  simp [hd]

theorem vect_shift (N d : ℕ) (hd : d < N) (h3 : N ≤ 3) (dt t : ℝ) (e : ℕ) :
    windowShift { dt := dt, movingWindowVect := some ((List.replicate N 0).set d 1) } t e =
      if e = d then lightSpeed * t else 0 := by
  have hdir : ∀ e, direction { dt := dt, movingWindowVect := some ((List.replicate N 0).set d 1) } e =
      if e = d then 1 else 0 := by
    intro e
    unfold direction
    simp only [Option.getD_some]
    rw [List.getD_eq_getElem?_getD, List.getElem?_set]
    by_cases he : e = d
    · subst he
      simp [hd]
    · rw [if_neg (fun h => he h.symm), if_neg he]
      rw [List.getElem?_replicate]
      split_ifs <;> rfl
  unfold windowShift
  rw [if_pos (show moves _ from Or.inr ⟨rfl, by simp⟩), hdir, hdir, hdir, hdir]
  have : Real.sqrt ((if 0 = d then (1 : ℝ) else 0) ^ 2 + (if 1 = d then 1 else 0) ^ 2 + (if 2 = d then 1 else 0) ^ 2) = 1 := by
    have hd3 : d < 3 := by omega
    interval_cases d <;> simp
  rw [this, div_one]
  split_ifs <;> ring

/-- One step of a field which is not reduced. -/
theorem adaptive_step_small (spl : Splines ℝ) (hspl : ExactOnEven spl) (padsize : ℕ → Res ℕ) (t : ℕ → ℕ)
    (ht : ∀ l, padsize l = .ok (t l) ∧ l ≤ t l) (f : Field ℝ ℂ) (shape : List ℕ) (x0 h : ℕ → ℝ) (hg : OnGrid f shape false x0 h)
    (h2 : 2 ≤ shape.length) (hl : ∀ n ∈ shape, n ≤ 4000) (axis : ℤ) (d : ℕ) (hd : pyIdx shape.length axis = some d) (first : ℝ)
    (hx : first < x0 d - h d / 2 + shape.getD d 0 * h d / 2 + meanWidth shape h d / 2) :
    ∃ (P g : Field ℝ ℂ) (shape' off : List ℕ), Stepped spl f P g shape shape' off x0 h d (meanWidth shape h d / 2) ∧
      adaptiveStep spl padsize ((List.replicate shape.length 0).set d 1) first axis f =
        (g.autocutout spl (fun m a => Compat.tukey m a) (fun z => ‖z‖) none (0.01, 0.02)).map fun r =>
          (meanWidth shape h d / 2 / lightSpeed, r) := by
  have hdl := pyIdx_lt hd
  obtain ⟨hD, hDpos⟩ := hg.distance hd h2
  set D := meanWidth shape h d / 2 with hDd
  have hDp : 0 < D := by rw [hDd]; positivity
  obtain ⟨ax, a1, a2⟩ := hg.spatial rfl d hdl
  have hlen : shape.getD d 0 = ax.len := by
    rw [List.getD_eq_getElem?_getD, hg.axis_len a1]
    rfl
  have haxl : f.axes.length = shape.length := by rw [ok_axes_length hg.sound.ok, hg.size]
  have hmid : middle ax = x0 d - h d / 2 + shape.getD d 0 * h d / 2 := by rw [even_middle a2, hlen]
  have hxpos : 0 < middle ax - first + D := by rw [hmid]; linarith
  have hplen : 0 ≤ physicalLength ax := abs_nonneg _
  set xpad := D / (middle ax - first + D) * (0.5 * physicalLength ax) with hxpad
  have hxp : 0 ≤ xpad := by positivity
  have hpad : adaptivePad f.axes axis first D =
      .ok ((List.replicate shape.length (.length D, .length D)).set d (.length xpad, .length (0.1 * xpad))) := by
    unfold adaptivePad
    rw [pyGet_of (by rw [haxl]; exact hd) a1]
    simp only [bind, Except.bind]
    rw [if_neg hxpos.ne']
    rw [pySet_of _ (by rw [List.length_replicate, haxl]; exact hd), haxl]
  let p : List (ℕ × ℕ) := (List.range shape.length).map fun e =>
    if e = d then (cellsFor xpad (h d), cellsFor (0.1 * xpad) (h d)) else (cellsFor D (h e), cellsFor D (h e))
  have hp : ∀ e < shape.length, p[e]? = some
      (if e = d then (cellsFor xpad (h d), cellsFor (0.1 * xpad) (h d)) else (cellsFor D (h e), cellsFor D (h e))) := by
    intro e he
    simp only [p]
    rw [List.getElem?_map, List.getElem?_range he]
    rfl
  obtain ⟨P1, b1, b2, b3, b4, b5⟩ := hg.pad hspl
    (w := (List.replicate shape.length (.length D, .length D)).set d (.length xpad, .length (0.1 * xpad))) (p := p)
    (by simp) (by simp [p]) (by
      intro e wd pd c1 c2
      have he : e < shape.length := by simpa [p] using (List.getElem?_eq_some_iff.1 c2).1
      rw [hp e he] at c2
      have hpe := hg.pos e he
      rw [List.getElem?_set] at c1
      by_cases hed : e = d
      · subst hed
        rw [if_pos rfl, if_pos (by simpa using he)] at c1
        rw [if_pos rfl] at c2
        cases c1
        cases c2
        exact ⟨cellsFor_means hxp hpe, cellsFor_means (by positivity) hpe⟩
      · rw [if_neg (fun hh => hed hh.symm), List.getElem?_replicate, if_pos he] at c1
        rw [if_neg hed] at c2
        cases c1
        cases c2
        exact ⟨cellsFor_means hDp.le hpe, cellsFor_means hDp.le hpe⟩)
  obtain ⟨P, q, e1, e2, e3, e4, e5, e6⟩ := b4.autopad hspl (padsize := padsize) (t := t) (fun l _ => ht l)
  have hl1 : (List.zipWith (fun n (q : ℕ × ℕ) => q.1 + n + q.2) shape p).length = shape.length := by simp [p]
  set shape1 := List.zipWith (fun n (q : ℕ × ℕ) => q.1 + n + q.2) shape p with hs1
  rw [hl1] at e4
  let off : List ℕ := List.zipWith (· + ·) (q.map (·.1)) (p.map (·.1))
  have hoff : ∀ e < shape.length, ∃ pe qe, p[e]? = some pe ∧ q[e]? = some qe ∧ off.getD e 0 = qe.1 + pe.1 := by
    intro e he
    have g2 : q[e]? = some (q[e]'(by omega)) := List.getElem?_eq_getElem _
    refine ⟨_, _, hp e he, g2, ?_⟩
    simp only [off]
    rw [List.getD_eq_getElem?_getD, List.getElem?_zipWith, List.getElem?_map, List.getElem?_map, g2, hp e he]
    rfl
  have hP : OnGrid P (shape1.map t) false (fun e => x0 e - off.getD e 0 * h e) h := by
    refine ⟨e5.sound, e5.size, e5.some_dim, e5.three, e5.two, e5.pos, e5.states, ?_, by simp⟩
    intro _ e he
    obtain ⟨ax', g1, g2⟩ := e5.spatial rfl e he
    refine ⟨ax', g1, ?_⟩
    rw [List.length_map, hl1] at he
    obtain ⟨pe, qe, k1, k2, k3⟩ := hoff e he
    rw [List.getD_eq_getElem?_getD, k1, List.getD_eq_getElem?_getD, k2] at g2
    simp only [Option.getD_some] at g2
    rw [k3]
    push_cast
    rw [show x0 e - ((qe.1 : ℝ) + pe.1) * h e = x0 e - pe.1 * h e - qe.1 * h e by ring]
    exact g2
  have hN : (shape1.map t).length = shape.length := by rw [List.length_map, hl1]
  obtain ⟨F, l, -, -, l1, l2, l3⟩ := propagate_spatial_partial spl hspl P (shape1.map t) _ h hP
    { dt := D / lightSpeed, movingWindowVect := some ((List.replicate shape.length 0).set d 1) }
    (by rw [hN]; exact vect_ok _ d hdl _) 1
  obtain ⟨Q, g, m1, -, -, m4⟩ := l3 0 one_pos
  obtain ⟨g', rfl⟩ := List.length_eq_one_iff.1 l2
  obtain rfl : g' = g := by simpa using m1
  have hc : lightSpeed ≠ 0 := by unfold lightSpeed; norm_num
  refine ⟨P, g', shape1.map t, off, ⟨b5.trans e6, ⟨e2.trans b2, e3.trans b3⟩, hP, ?_, l1, ?_⟩, ?_⟩
  · intro e he hed
    obtain ⟨pe, qe, k1, k2, k3⟩ := hoff e he
    have hpe := hp e he
    rw [k1, if_neg hed, Option.some.injEq] at hpe
    have hcell := (cellsFor_means hDp.le (hg.pos e he)).2
    have hh := hg.pos e he
    rw [k3]
    constructor
    · rw [hpe]
      push_cast
      have : (0 : ℝ) ≤ qe.1 * h e := by positivity
      nlinarith
    · have r1 : shape[e]? = some shape[e] := List.getElem?_eq_getElem he
      have r2 : shape1[e]? = some (pe.1 + shape[e] + pe.2) := by
        rw [hs1, List.getElem?_zipWith, r1, k1]
      have r3 : (shape1.map t)[e]? = some (t (pe.1 + shape[e] + pe.2)) := by rw [List.getElem?_map, r2]; rfl
      have hroom := e6.room e qe.1 (pe.1 + shape[e] + pe.2) (t (pe.1 + shape[e] + pe.2)) (by rw [List.getElem?_map, k2]; rfl)
        (by rw [show P1.matrix.shape = shape1 from b4.size]; exact r2)
        (by rw [show P.matrix.shape = shape1.map t from e5.size]; exact r3)
      rw [List.getD_eq_getElem?_getD, r3, List.getD_eq_getElem?_getD, r1]
      simp only [Option.getD_some]
      have hr : ((qe.1 + (pe.1 + shape[e] + pe.2) : ℕ) : ℝ) ≤ (t (pe.1 + shape[e] + pe.2) : ℕ) := by exact_mod_cast hroom
      push_cast at hr ⊢
      have hle : (pe.2 : ℝ) ≤ (t (pe.1 + shape[e] + pe.2) : ℝ) - (qe.1 + pe.1) - shape[e] := by linarith
      refine le_trans ?_ (mul_le_mul_of_nonneg_right hle hh.le)
      rw [hpe]
      exact hcell
  · simp only [vect_shift _ d hdl hg.three] at m4
    have he : lightSpeed * ((((0 : ℕ) : ℝ) + if (false = true) then 0 else 1) * (D / lightSpeed)) = D := by
      simp
      field_simp
    simp only [Bool.false_eq_true, if_false] at m4 he
    rw [he] at m4
    exact m4
  · unfold adaptiveStep
    simp only [hg.reduced spl hl, hD, hpad, b1, e1, l1, bind, Except.bind, pure, Except.pure]
    have : pyGet [g'] 0 = .ok g' := rfl
    simp only [this]
    cases g'.autocutout spl (fun m a => Compat.tukey m a) (fun z => ‖z‖) none (0.01, 0.02) <;> rfl

theorem unsqueeze_self : ∀ (shape idx : List ℕ), idx.length = shape.length → (∀ n ∈ shape, n ≠ 1) → unsqueeze shape idx = idx
  | [], [], _, _ => rfl
  | n :: shape, i :: idx, hl, h => by
    have := unsqueeze_self shape idx (by simpa using hl) fun m hm => h m (by simp [hm])
    simp [unsqueeze, h n (by simp), this]

/-- Two dimensions, for a field which is not reduced. -/
theorem adaptive_2d_small (spl : Splines ℝ) (hspl : ExactOnEven spl) (padsize : ℕ → Res ℕ) (t : ℕ → ℕ)
    (ht : ∀ l, padsize l = .ok (t l) ∧ l ≤ t l) (f : Field ℝ ℂ) (shape : List ℕ) (x0 h : ℕ → ℝ) (hg : OnGrid f shape false x0 h)
    (h2 : shape.length = 2) (hl : ∀ n ∈ shape, n ≤ 4000) (axis : ℤ) (d : ℕ) (hd : pyIdx shape.length axis = some d) (first : ℝ)
    (hx : first < x0 d - h d / 2 + shape.getD d 0 * h d / 2 + meanWidth shape h d / 2) :
    ∃ (P g : Field ℝ ℂ) (shape' off : List ℕ), Stepped spl f P g shape shape' off x0 h d (meanWidth shape h d / 2) ∧
      ((∃ idx, InBounds g.shape idx ∧ g.matrix.at' idx ≠ 0) → ∃ r,
        adaptiveStep spl padsize ((List.replicate shape.length 0).set d 1) first axis f =
          .ok (meanWidth shape h d / 2 / lightSpeed, r)) := by
  obtain ⟨P, g, shape', off, h1, h3⟩ := adaptive_step_small spl hspl padsize t ht f shape x0 h hg (by omega) hl axis d hd first hx
  refine ⟨P, g, shape', off, h1, ?_⟩
  rintro ⟨idx, hidx, hne⟩
  have hm := h1.moved
  have hlen : shape'.length = 2 := by
    have := h1.embedded.dims
    rw [show P.matrix.shape = shape' from h1.grid.size, show f.matrix.shape = shape from hg.size] at this
    omega
  obtain ⟨s, s1, s2, -, -, s5, -, s7⟩ := squeeze_sound spl hm.sound (by rw [hm.size]; exact hm.three)
  have hsh : s.shape = g.shape := by
    rw [s5, List.filter_eq_self]
    intro n hn
    rw [hm.size] at hn
    have := hm.two n hn
    simp
    omega
  obtain ⟨r, -, -, -, hr, -⟩ := autocutout_partial spl (fun z : ℂ => ‖z‖) (fun v => norm_nonneg v) g s s1 s2
    (by rw [hsh, hm.size]; omega) idx (by rw [hsh]; exact hidx) (by
      rw [s7 idx (by rw [hsh]; exact hidx), norm_pos_iff]
      rw [unsqueeze_self g.shape idx hidx.1 fun n hn => by
        rw [hm.size] at hn
        have := hm.two n hn
        omega]
      exact hne) 0.01 0.02 (by norm_num) (by norm_num) (List.range s.shape.length) List.nodup_range
      (fun d hd => List.mem_range.1 hd) none (Or.inr ⟨rfl, rfl⟩)
  refine ⟨r, ?_⟩
  rw [h3, hr]
  rfl

theorem coarse_shape_le (shape : List ℕ) : ∀ n ∈ coarseShape shape, n ≤ 4000 := by
  intro n hn
  obtain ⟨m, -, rfl⟩ := List.mem_map.1 hn
  exact halvings_spec 4000 m

theorem step_coarse {spl : Splines ℝ} {padsize : ℕ → Res ℕ} {f R : Field ℝ ℂ} (h1 : Fields.reduced spl f = .ok R)
    (h2 : Fields.reduced spl R = .ok R) (vect : List ℝ) (first : ℝ) (axis : ℤ) :
    adaptiveStep spl padsize vect first axis f = adaptiveStep spl padsize vect first axis R := by
  unfold adaptiveStep
  rw [h1, h2]

/-- C99: one step for a field with two or three dimensions of at least 2 points. Cells are joined until no dimension has more than 4000;
for a smaller field nothing is changed (`coarse_small`). Then, if the field is not too far behind its first position, the step is half of
the mean width of the field, the propagation takes place on a grid with room for everything which leaves the field
sideways, and the result is cut out of the propagated field. Partial: evenly spaced increasing axes. -/
theorem adaptive_step_partial (spl : Splines ℝ) (hspl : ExactOnEven spl) (padsize : ℕ → Res ℕ) (t : ℕ → ℕ)
    (ht : ∀ l, padsize l = .ok (t l) ∧ l ≤ t l) (f : Field ℝ ℂ) (shape : List ℕ) (x0 h : ℕ → ℝ) (hg : OnGrid f shape false x0 h)
    (h2 : 2 ≤ shape.length) (axis : ℤ) (d : ℕ) (hd : pyIdx shape.length axis = some d) (first : ℝ)
    (hx : first < x0 d - h d / 2 + (coarseShape shape).getD d 0 * coarseSize shape h d / 2 +
      meanWidth (coarseShape shape) (coarseSize shape h) d / 2) :
    ∃ (R P g : Field ℝ ℂ) (shape' off : List ℕ), Reduced 4000 f R ∧
      OnGrid R (coarseShape shape) false (coarseFirst shape x0 h) (coarseSize shape h) ∧
      Stepped spl R P g (coarseShape shape) shape' off (coarseFirst shape x0 h) (coarseSize shape h) d
        (meanWidth (coarseShape shape) (coarseSize shape h) d / 2) ∧
      adaptiveStep spl padsize ((List.replicate shape.length 0).set d 1) first axis f =
        (g.autocutout spl (fun m a => Compat.tukey m a) (fun z => ‖z‖) none (0.01, 0.02)).map fun r =>
          (meanWidth (coarseShape shape) (coarseSize shape h) d / 2 / lightSpeed, r) := by
  obtain ⟨R, r1, r2, r3⟩ := hg.coarse spl
  have hl : (coarseShape shape).length = shape.length := by simp [coarseShape]
  obtain ⟨P, g, shape', off, g1, g2⟩ := adaptive_step_small spl hspl padsize t ht R _ _ _ r3 (by rw [hl]; exact h2)
    (coarse_shape_le shape) axis d (by rw [hl]; exact hd) first (by
      unfold coarseFirst
      rw [add_sub_cancel_right]
      exact hx)
  rw [hl] at g2
  refine ⟨R, P, g, shape', off, r2, r3, g1, ?_⟩
  rw [step_coarse r1 (r3.reduced spl (coarse_shape_le shape)), g2]

/-- C99: with two dimensions the step succeeds, provided that there is something left to cut out. -/
theorem adaptive_2d_partial (spl : Splines ℝ) (hspl : ExactOnEven spl) (padsize : ℕ → Res ℕ) (t : ℕ → ℕ)
    (ht : ∀ l, padsize l = .ok (t l) ∧ l ≤ t l) (f : Field ℝ ℂ) (shape : List ℕ) (x0 h : ℕ → ℝ) (hg : OnGrid f shape false x0 h)
    (h2 : shape.length = 2) (axis : ℤ) (d : ℕ) (hd : pyIdx shape.length axis = some d) (first : ℝ)
    (hx : first < x0 d - h d / 2 + (coarseShape shape).getD d 0 * coarseSize shape h d / 2 +
      meanWidth (coarseShape shape) (coarseSize shape h) d / 2) :
    ∃ (R P g : Field ℝ ℂ) (shape' off : List ℕ), Reduced 4000 f R ∧
      Stepped spl R P g (coarseShape shape) shape' off (coarseFirst shape x0 h) (coarseSize shape h) d
        (meanWidth (coarseShape shape) (coarseSize shape h) d / 2) ∧
      ((∃ idx, InBounds g.shape idx ∧ g.matrix.at' idx ≠ 0) → ∃ r,
        adaptiveStep spl padsize ((List.replicate shape.length 0).set d 1) first axis f =
          .ok (meanWidth (coarseShape shape) (coarseSize shape h) d / 2 / lightSpeed, r)) := by
  obtain ⟨R, r1, r2, r3⟩ := hg.coarse spl
  have hl : (coarseShape shape).length = shape.length := by simp [coarseShape]
  obtain ⟨P, g, shape', off, g1, g2⟩ := adaptive_2d_small spl hspl padsize t ht R _ _ _ r3 (by rw [hl]; exact h2)
    (coarse_shape_le shape) axis d (by rw [hl]; exact hd) first (by
      unfold coarseFirst
      rw [add_sub_cancel_right]
      exact hx)
  rw [hl] at g2
  refine ⟨R, P, g, shape', off, r2, g1, ?_⟩
  rw [step_coarse r1 (r3.reduced spl (coarse_shape_le shape))]
  exact g2

/-- A field with at most 4000 points in each dimension keeps its grid. -/
theorem coarse_small (shape : List ℕ) (hl : ∀ n ∈ shape, n ≤ 4000) (x0 h : ℕ → ℝ) :
    coarseShape shape = shape ∧ coarseSize shape h = h ∧ coarseFirst shape x0 h = x0 := by
  have h0 : ∀ d, halvings 4000 (shape.getD d 0) = 0 := by
    intro d
    apply halvings_le
    rw [List.getD_eq_getElem?_getD]
    cases hd : shape[d]? with
    | none => simp
    | some n => exact hl n (List.mem_of_getElem? hd)
  have h1 : coarseSize shape h = h := by
    funext d
    unfold coarseSize
    rw [h0, pow_zero, one_mul]
  refine ⟨?_, h1, ?_⟩
  · unfold coarseShape
    conv_rhs => rw [← List.map_id shape]
    apply List.map_congr_left
    intro n hn
    rw [halvings_le (hl n hn)]
    simp
  · funext d
    unfold coarseFirst
    rw [h1]
    ring

/-- C99 violated: with three dimensions no step succeeds; the first one raises an `IndexError`. -/
theorem adaptive_3d_violated (spl : Splines ℝ) (hspl : ExactOnEven spl) (padsize : ℕ → Res ℕ) (t : ℕ → ℕ)
    (ht : ∀ l, padsize l = .ok (t l) ∧ l ≤ t l) (f : Field ℝ ℂ) (shape : List ℕ) (x0 h : ℕ → ℝ) (hg : OnGrid f shape false x0 h)
    (h2 : shape.length = 3) (hl : ∀ n ∈ shape, n ≤ 4000) (axis : ℤ) (d : ℕ) (hd : pyIdx shape.length axis = some d)
    (tFinal : Option ℝ) (n : ℕ) :
    propagateAdaptive spl padsize f axis tFinal false (n + 1) = [.error .indexError] := by
  have hdl := pyIdx_lt hd
  obtain ⟨ax, a1, a2⟩ := hg.spatial rfl d hdl
  have hlen : shape.getD d 0 = ax.len := by
    rw [List.getD_eq_getElem?_getD, hg.axis_len a1]
    rfl
  have haxl : f.axes.length = shape.length := by rw [ok_axes_length hg.sound.ok, hg.size]
  obtain ⟨P, g, shape', off, h1, h3⟩ := adaptive_step_small spl hspl padsize t ht f shape x0 h hg (by omega) hl axis d hd
    (middle ax) (by
      rw [even_middle a2, hlen]
      have := (hg.distance hd (by omega)).2
      linarith)
  have hm := h1.moved
  have hl' : shape'.length = 3 := by
    have := h1.embedded.dims
    rw [show P.matrix.shape = shape' from h1.grid.size, show f.matrix.shape = shape from hg.size] at this
    omega
  obtain ⟨s, s1, s2, -, -, s5, -, -⟩ := squeeze_sound spl hm.sound (by rw [hm.size]; exact hm.three)
  have hsh : s.shape = g.shape := by
    rw [s5, List.filter_eq_self]
    intro n hn
    rw [hm.size] at hn
    have := hm.two n hn
    simp
    omega
  rw [autocutout_3d_violated spl _ _ g s s1 s2 (by rw [hsh, hm.size]; exact hl')] at h3
  have hstart : adaptiveStart spl f axis = .ok (false, f, (List.replicate shape.length 0).set d 1, middle ax) := by
    unfold adaptiveStart
    have hdims : f.dims.toNat = shape.length := by rw [dims_sound hg.sound, hg.size]; rfl
    simp only [hg.collective, bind, Except.bind, pure, Except.pure, Bool.false_eq_true, if_false]
    rw [pySet_of _ (by rw [List.length_replicate, hdims]; exact hd), hdims]
    simp only
    rw [pyGet_of (by rw [haxl]; exact hd) a1]
  unfold propagateAdaptive adaptiveGenerator
  rw [hstart]
  simp only [Bool.false_eq_true, if_false]
  unfold adaptiveLoop
  rw [h3]
  rfl

/-- C99 violated: with one dimension there are no other lengths, and the first step raises a `ValueError`. -/
theorem adaptive_1d_violated (spl : Splines ℝ) (padsize : ℕ → Res ℕ) (f : Field ℝ ℂ) (n0 : ℕ) (x0 h : ℕ → ℝ)
    (hg : OnGrid f [n0] false x0 h) (tFinal : Option ℝ) (n : ℕ) :
    propagateAdaptive spl padsize f 0 tFinal false (n + 1) = [.error .valueError] := by
  obtain ⟨ax, a1, a2⟩ := hg.spatial rfl 0 (by simp)
  have haxl : f.axes.length = 1 := by rw [ok_axes_length hg.sound.ok, hg.size]; rfl
  obtain ⟨b, hb⟩ := List.length_eq_one_iff.1 haxl
  have hstart : ∃ v x, adaptiveStart spl f 0 = .ok (false, f, v, x) := by
    have hdims : f.dims.toNat = 1 := by rw [dims_sound hg.sound, hg.size]; rfl
    refine ⟨[1], middle b, ?_⟩
    unfold adaptiveStart
    simp only [hg.collective, bind, Except.bind, pure, Except.pure, Bool.false_eq_true, if_false, hdims, hb]
    rfl
  obtain ⟨v, x, hstart⟩ := hstart
  unfold propagateAdaptive adaptiveGenerator
  rw [hstart]
  simp only [Bool.false_eq_true, if_false]
  unfold adaptiveLoop
  have : adaptiveStep spl padsize v x 0 f = .error .valueError := by
    unfold adaptiveStep
    obtain ⟨R, r1, r2, -⟩ := hg.coarse spl
    obtain ⟨b', hb'⟩ := List.length_eq_one_iff.1 (r2.dims.trans haxl)
    have hd : adaptiveDistance R.axes 0 = .error .valueError := by
      unfold adaptiveDistance
      rw [hb']
      rfl
    simp only [r1, hd, bind, Except.bind]
  rw [this]
  rfl

/-! ## C99: all steps -/

theorem until_prefix (tFinal : Option ℝ) : ∀ l, (∀ e, .error e ∈ l.dropLast → False) → adaptiveUntil tFinal l <+: l
  | [], _ => List.prefix_rfl
  | .error e :: l, h => by
    cases l with
    | nil => exact List.prefix_rfl
    | cons a l => exact (h e (by simp)).elim
  | .ok r :: l, h => by
    unfold adaptiveUntil
    split_ifs
    · exact ⟨l, rfl⟩
    · rw [List.prefix_cons_inj]
      refine until_prefix tFinal l fun e he => h e ?_
      cases l with
      | nil => simp at he
      | cons a l => simp only [List.dropLast_cons₂, List.mem_cons]; exact Or.inr he

theorem until_all (tFinal : Option ℝ) (h0 : ∀ T, tFinal = some T → T = 0) : ∀ l : List (Res (ℝ × Field ℝ ℂ)),
    (∀ e, .error e ∈ l.dropLast → False) → adaptiveUntil tFinal l = l
  | [], _ => rfl
  | .error e :: l, h => by
    cases l with
    | nil => rfl
    | cons a l => exact (h e (by simp)).elim
  | .ok r :: l, h => by
    unfold adaptiveUntil
    rw [if_neg, until_all tFinal h0 l]
    · intro e he
      refine h e ?_
      cases l with
      | nil => simp at he
      | cons a l => simp only [List.dropLast_cons₂, List.mem_cons]; exact Or.inr he
    · rintro ⟨T, hT, hne, -⟩
      exact hne (h0 T hT)

/-- The results of the loop: an exception is at the end only. -/
theorem loop_errors (step : Field ℝ ℂ → Res (ℝ × Field ℝ ℂ)) (out : Field ℝ ℂ → Res (Field ℝ ℂ)) : ∀ (n : ℕ) (t : ℝ) (f : Field ℝ ℂ),
    (∀ e, Except.error e ∈ (adaptiveLoop step out n t f).dropLast → False) ∧
      ((adaptiveLoop step out n t f).length = n ∨ Raises (adaptiveLoop step out n t f))
  | 0, t, f => ⟨by simp [adaptiveLoop], Or.inl rfl⟩
  | n + 1, t, f => by
    unfold adaptiveLoop
    cases step f with
    | error e => exact ⟨by simp, Or.inr ⟨e, rfl⟩⟩
    | ok r =>
      simp only
      cases out r.2 with
      | error e => exact ⟨by simp, Or.inr ⟨e, rfl⟩⟩
      | ok q =>
        obtain ⟨h1, h2⟩ := loop_errors step out n (t + r.1) r.2
        simp only
        constructor
        · intro e he
          cases hl : adaptiveLoop step out n (t + r.1) r.2 with
          | nil => rw [hl] at he; simp at he
          | cons a l =>
            rw [hl] at he h1
            simp only [List.dropLast_cons₂, List.mem_cons] at he
            rcases he with he | he
            · cases he
            · exact h1 e he
        · rcases h2 with h2 | ⟨e, h2⟩
          · left
            simp [h2]
          · right
            refine ⟨e, ?_⟩
            cases hl : adaptiveLoop step out n (t + r.1) r.2 with
            | nil => rw [hl] at h2; simp at h2
            | cons a l => rw [hl] at h2; simpa using h2

theorem generator_errors (spl : Splines ℝ) (padsize : ℕ → Res ℕ) (f : Field ℝ ℂ) (axis : ℤ) (zeroth : Bool) (n : ℕ) :
    (∀ e, Except.error e ∈ (adaptiveGenerator spl padsize f axis zeroth n).dropLast → False) ∧
      ((adaptiveGenerator spl padsize f axis zeroth n).length = n ∨ Raises (adaptiveGenerator spl padsize f axis zeroth n)) := by
  unfold adaptiveGenerator
  cases adaptiveStart spl f axis with
  | error e =>
    simp only
    split_ifs with h
    · exact ⟨by simp, Or.inl h.symm⟩
    · exact ⟨by simp, Or.inr ⟨e, rfl⟩⟩
  | ok r =>
    obtain ⟨state, g, vect, x0⟩ := r
    simp only
    cases zeroth with
    | false => exact loop_errors _ _ n 0 g
    | true =>
      cases n with
      | zero => exact ⟨by simp, Or.inl rfl⟩
      | succ n =>
        obtain ⟨h1, h2⟩ := loop_errors (adaptiveStep spl padsize vect x0 axis)
          (fun g => if state then g.fft spl none "spatial" false else .ok g) n 0 g
        simp only [if_true]
        constructor
        · intro e he
          cases hl : adaptiveLoop (adaptiveStep spl padsize vect x0 axis)
            (fun g => if state then g.fft spl none "spatial" false else .ok g) n 0 g with
          | nil => rw [hl] at he; simp at he
          | cons a l =>
            rw [hl] at he h1
            simp only [List.dropLast_cons₂, List.mem_cons] at he
            rcases he with he | he
            · cases he
            · exact h1 e he
        · rcases h2 with h2 | ⟨e, h2⟩
          · left
            simp [h2]
          · right
            refine ⟨e, ?_⟩
            cases hl : adaptiveLoop (adaptiveStep spl padsize vect x0 axis)
              (fun g => if state then g.fft spl none "spatial" false else .ok g) n 0 g with
            | nil => rw [hl] at h2; simp at h2
            | cons a l => rw [hl] at h2; simpa using h2

theorem until_spec (T : ℝ) (hT : T ≠ 0) : ∀ l : List (Res (ℝ × Field ℝ ℂ)),
    (∀ (i : ℕ) r, i + 1 < (adaptiveUntil (some T) l).length → (adaptiveUntil (some T) l)[i]? = some (.ok r) → r.1 ≤ T) ∧
      (adaptiveUntil (some T) l = l ∨ Raises (adaptiveUntil (some T) l) ∨
        ∃ r, (adaptiveUntil (some T) l).getLast? = some (.ok r) ∧ T < r.1)
  | [] => ⟨by simp [adaptiveUntil], Or.inl rfl⟩
  | .error e :: l => ⟨by simp [adaptiveUntil], Or.inr (Or.inl ⟨e, rfl⟩)⟩
  | .ok r :: l => by
    obtain ⟨h1, h2⟩ := until_spec T hT l
    by_cases h : adaptiveEnds (some T) r.1
    · have hu : adaptiveUntil (some T) (.ok r :: l) = [.ok r] := by
        unfold adaptiveUntil
        rw [if_pos h]
      rw [hu]
      obtain ⟨T', rfl', -, h3⟩ := h
      cases rfl'
      exact ⟨by simp, Or.inr (Or.inr ⟨r, rfl, h3⟩)⟩
    · have hu : adaptiveUntil (some T) (.ok r :: l) = .ok r :: adaptiveUntil (some T) l := by
        conv_lhs => unfold adaptiveUntil
        rw [if_neg h]
      rw [hu]
      have hle : r.1 ≤ T := by
        by_contra hc
        exact h ⟨T, rfl, hT, not_le.1 hc⟩
      constructor
      · intro i q hi hq
        cases i with
        | zero =>
          simp only [List.getElem?_cons_zero, Option.some.injEq, Except.ok.injEq] at hq
          rw [← hq]
          exact hle
        | succ i => exact h1 i q (by simpa using hi) (by simpa using hq)
      · have hlast : ∀ {x}, (adaptiveUntil (some T) l).getLast? = some x →
            (Except.ok r :: adaptiveUntil (some T) l : List (Res (ℝ × Field ℝ ℂ))).getLast? = some x := by
          intro x hx
          cases hl : adaptiveUntil (some T) l with
          | nil => rw [hl] at hx; simp at hx
          | cons a l' => rw [hl] at hx; simpa using hx
        rcases h2 with h2 | ⟨e, h2⟩ | ⟨q, h2, h3⟩
        · left
          rw [h2]
        · exact Or.inr (Or.inl ⟨e, hlast h2⟩)
        · exact Or.inr (Or.inr ⟨q, hlast h2, h3⟩)

/-- C99: with a final time which is not 0 the results are those without final time, up to and including the first one after the
final time; there the generator ends. Partial: the time 0 counts as no time (see `adaptive_zero_violated`). -/
theorem adaptive_stops_partial (spl : Splines ℝ) (padsize : ℕ → Res ℕ) (f : Field ℝ ℂ) (axis : ℤ) (T : ℝ) (hT : T ≠ 0)
    (zeroth : Bool) (n : ℕ) :
    propagateAdaptive spl padsize f axis (some T) zeroth n <+: propagateAdaptive spl padsize f axis none zeroth n ∧
      (∀ (i : ℕ) r, i + 1 < (propagateAdaptive spl padsize f axis (some T) zeroth n).length →
        (propagateAdaptive spl padsize f axis (some T) zeroth n)[i]? = some (.ok r) → r.1 ≤ T) ∧
      ((propagateAdaptive spl padsize f axis (some T) zeroth n).length = n ∨
        Raises (propagateAdaptive spl padsize f axis (some T) zeroth n) ∨
        ∃ r, (propagateAdaptive spl padsize f axis (some T) zeroth n).getLast? = some (.ok r) ∧ T < r.1) := by
  obtain ⟨g1, g2⟩ := generator_errors spl padsize f axis zeroth n
  obtain ⟨h1, h2⟩ := until_spec T hT (adaptiveGenerator spl padsize f axis zeroth n)
  have hnone := until_all none (by simp) _ g1
  unfold propagateAdaptive
  rw [hnone]
  refine ⟨until_prefix _ _ g1, h1, ?_⟩
  rcases h2 with h2 | h2 | h2
  · rw [h2]
    rcases g2 with g2 | g2
    · exact Or.inl g2
    · exact Or.inr (Or.inl g2)
  · exact Or.inr (Or.inl h2)
  · exact Or.inr (Or.inr h2)

/-- C99: without final time the generator never ends by itself. C99 violated: this holds for the final time 0, too, although all
steps are after it. -/
theorem adaptive_zero_violated (spl : Splines ℝ) (padsize : ℕ → Res ℕ) (f : Field ℝ ℂ) (axis : ℤ) (zeroth : Bool) (n : ℕ) :
    propagateAdaptive spl padsize f axis (some 0) zeroth n = propagateAdaptive spl padsize f axis none zeroth n ∧
      ((propagateAdaptive spl padsize f axis none zeroth n).length = n ∨
        Raises (propagateAdaptive spl padsize f axis none zeroth n)) := by
  obtain ⟨g1, g2⟩ := generator_errors spl padsize f axis zeroth n
  unfold propagateAdaptive
  rw [until_all none (by simp) _ g1, until_all (some 0) (by simp) _ g1]
  exact ⟨rfl, g2⟩

theorem step_time (spl : Splines ℝ) (padsize : ℕ → Res ℕ) (vect : List ℝ) (x0 : ℝ) (axis : ℤ) (f : Field ℝ ℂ) (r : ℝ × Field ℝ ℂ)
    (h : adaptiveStep spl padsize vect x0 axis f = .ok r) : 0 ≤ r.1 := by
  have hc : 0 < lightSpeed := by unfold lightSpeed; norm_num
  unfold adaptiveStep at h
  obtain ⟨f1, -, h⟩ := bind_ok h
  obtain ⟨D, hD, h⟩ := bind_ok h
  obtain ⟨p, -, h⟩ := bind_ok h
  obtain ⟨f2, -, h⟩ := bind_ok h
  obtain ⟨f3, -, h⟩ := bind_ok h
  obtain ⟨l, -, h⟩ := bind_ok h
  obtain ⟨f4, -, h⟩ := bind_ok h
  obtain ⟨f5, -, h⟩ := bind_ok h
  cases h
  apply div_nonneg _ hc.le
  unfold adaptiveDistance at hD
  obtain ⟨tr, htr, hD⟩ := bind_ok hD
  split_ifs at hD
  · cases hD
  · cases hD
    unfold pyDel at htr
    split at htr
    · cases htr
      apply mul_nonneg (by norm_num)
      unfold meanList
      apply div_nonneg _ (by positivity)
      apply List.sum_nonneg
      intro x hx
      obtain ⟨ax, -, rfl⟩ := List.mem_map.1 (List.mem_of_mem_eraseIdx hx)
      exact abs_nonneg _
    · cases htr

theorem loop_times (step : Field ℝ ℂ → Res (ℝ × Field ℝ ℂ)) (hs : ∀ f r, step f = .ok r → 0 ≤ r.1)
    (out : Field ℝ ℂ → Res (Field ℝ ℂ)) : ∀ (n : ℕ) (t : ℝ) (f : Field ℝ ℂ),
      (t :: timesOf (adaptiveLoop step out n t f)).Pairwise (· ≤ ·)
  | 0, t, f => by simp [adaptiveLoop, timesOf]
  | n + 1, t, f => by
    unfold adaptiveLoop
    cases hr : step f with
    | error e => simp [timesOf, Except.toOption]
    | ok r =>
      simp only
      cases out r.2 with
      | error e => simp [timesOf, Except.toOption]
      | ok q =>
        have ih := loop_times step hs out n (t + r.1) r.2
        have h0 := hs f r hr
        have : timesOf (.ok (t + r.1, q) :: adaptiveLoop step out n (t + r.1) r.2) =
            (t + r.1) :: timesOf (adaptiveLoop step out n (t + r.1) r.2) := rfl
        simp only
        rw [this]
        refine List.Pairwise.cons ?_ ih
        intro u hu
        rcases List.mem_cons.1 hu with rfl | hu
        · linarith
        · have := List.rel_of_pairwise_cons ih hu
          linarith

/-- C99: the times of the results begin at 0 or later and do not decrease, for all fields and arguments. -/
theorem adaptive_times (spl : Splines ℝ) (padsize : ℕ → Res ℕ) (f : Field ℝ ℂ) (axis : ℤ) (tFinal : Option ℝ) (zeroth : Bool) (n : ℕ) :
    (0 :: timesOf (propagateAdaptive spl padsize f axis tFinal zeroth n)).Pairwise (· ≤ ·) := by
  have hgen : (0 :: timesOf (adaptiveGenerator spl padsize f axis zeroth n)).Pairwise (· ≤ ·) := by
    unfold adaptiveGenerator
    cases adaptiveStart spl f axis with
    | error e =>
      simp only
      split_ifs <;> simp [timesOf, Except.toOption]
    | ok r =>
      obtain ⟨state, g, vect, x0⟩ := r
      have key := fun n => loop_times (adaptiveStep spl padsize vect x0 axis) (step_time spl padsize vect x0 axis)
        (fun g => if state then g.fft spl none "spatial" false else .ok g) n 0 g
      simp only
      cases zeroth with
      | false => exact key n
      | true =>
        cases n with
        | zero => simp [timesOf]
        | succ n =>
          simp only [if_true]
          have h0 : ∀ l : List (Res (ℝ × Field ℝ ℂ)), timesOf (.ok (0, f) :: l) = 0 :: timesOf l := fun l => rfl
          rw [h0]
          refine List.Pairwise.cons ?_ (key n)
          intro u hu
          rcases List.mem_cons.1 hu with rfl | hu
          · exact le_rfl
          · exact List.rel_of_pairwise_cons (key n) hu
  refine hgen.sublist (List.Sublist.cons_cons _ ?_)
  unfold timesOf propagateAdaptive
  exact (until_prefix tFinal _ (generator_errors spl padsize f axis zeroth n).1).sublist.filterMap _

/-- What the generator does for a field in one of the domains. -/
theorem generator_eq (spl : Splines ℝ) (hspl : ExactOnEven spl) (padsize : ℕ → Res ℕ) (f : Field ℝ ℂ) (shape : List ℕ) (state : Bool)
    (x0 h : ℕ → ℝ) (hg : OnGrid f shape state x0 h) (axis : ℤ) (d : ℕ) (hd : pyIdx shape.length axis = some d) :
    ∃ (g : Field ℝ ℂ) (vect : List ℝ) (first : ℝ), adaptiveStart spl f axis = .ok (state, g, vect, first) ∧
      OnGrid g shape false x0 h ∧ (if state then f.fft spl none "spatial" false = .ok g else g = f) ∧
      adaptiveStart spl g axis = .ok (false, g, vect, first) := by
  have hdl := pyIdx_lt hd
  have key : ∀ g, OnGrid g shape false x0 h → ∃ (vect : List ℝ) (first : ℝ), pySet (List.replicate g.dims.toNat (0 : ℝ)) axis 1 = .ok vect ∧
      (∃ ax, pyGet g.axes axis = .ok ax ∧ middle ax = first) ∧ collectiveState g.ats g.rangeDims = .ok (some false) := by
    intro g hg
    have hdims : g.dims.toNat = shape.length := by rw [dims_sound hg.sound, hg.size]; rfl
    have haxl : g.axes.length = shape.length := by rw [ok_axes_length hg.sound.ok, hg.size]
    obtain ⟨ax, a1, a2⟩ := hg.spatial rfl d hdl
    exact ⟨_, middle ax, pySet_of _ (by rw [List.length_replicate, hdims]; exact hd),
      ⟨ax, pyGet_of (by rw [haxl]; exact hd) a1, rfl⟩, hg.collective⟩
  cases state with
  | false =>
    obtain ⟨v, x, k1, ⟨ax, k2, k3⟩, k4⟩ := key f hg
    have : adaptiveStart spl f axis = .ok (false, f, v, x) := by
      unfold adaptiveStart
      simp only [k4, bind, Except.bind, pure, Except.pure, Bool.false_eq_true, if_false, k1, k2, k3]
    exact ⟨f, v, x, this, hg, by simp, this⟩
  | true =>
    obtain ⟨g, g1, g2⟩ := hg.fftBack hspl
    obtain ⟨v, x, k1, ⟨ax, k2, k3⟩, k4⟩ := key g g2
    refine ⟨g, v, x, ?_, g2, by simpa using g1, ?_⟩
    · unfold adaptiveStart
      simp only [hg.collective, g1, bind, Except.bind, pure, Except.pure, if_true, k1, k2, k3]
    · unfold adaptiveStart
      simp only [k4, bind, Except.bind, pure, Except.pure, Bool.false_eq_true, if_false, k1, k2, k3]

/-- C99: with `yield_zeroth_step` there is one result more, at the beginning: the given field itself at the time 0. -/
theorem adaptive_zeroth (spl : Splines ℝ) (hspl : ExactOnEven spl) (padsize : ℕ → Res ℕ) (f : Field ℝ ℂ) (shape : List ℕ) (state : Bool)
    (x0 h : ℕ → ℝ) (hg : OnGrid f shape state x0 h) (axis : ℤ) (d : ℕ) (hd : pyIdx shape.length axis = some d) (n : ℕ) :
    propagateAdaptive spl padsize f axis none true (n + 1) = .ok (0, f) :: propagateAdaptive spl padsize f axis none false n := by
  obtain ⟨g, v, x, h1, -, -, -⟩ := generator_eq spl hspl padsize f shape state x0 h hg axis d hd
  unfold propagateAdaptive
  rw [until_all none (by simp) _ (generator_errors spl padsize f axis _ _).1,
    until_all none (by simp) _ (generator_errors spl padsize f axis _ _).1]
  unfold adaptiveGenerator
  rw [h1]
  rfl

theorem loop_out (step : Field ℝ ℂ → Res (ℝ × Field ℝ ℂ)) (out : Field ℝ ℂ → Res (Field ℝ ℂ)) : ∀ (n : ℕ) (t : ℝ) (f : Field ℝ ℂ)
    (i : ℕ) (r : ℝ × Field ℝ ℂ), (adaptiveLoop step out n t f)[i]? = some (.ok r) →
      ∃ g, (adaptiveLoop step .ok n t f)[i]? = some (.ok (r.1, g)) ∧ out g = .ok r.2
  | 0, t, f, i, r, h => by simp [adaptiveLoop] at h
  | n + 1, t, f, i, r, h => by
    unfold adaptiveLoop at h ⊢
    cases hs : step f with
    | error e =>
      rw [hs] at h
      cases i <;> simp at h
    | ok q =>
      simp only [hs] at h ⊢
      cases ho : out q.2 with
      | error e =>
        simp only [ho] at h
        cases i <;> simp at h
      | ok z =>
        simp only [ho] at h
        cases i with
        | zero =>
          simp only [List.getElem?_cons_zero, Option.some.injEq, Except.ok.injEq] at h
          subst h
          exact ⟨q.2, rfl, ho⟩
        | succ i =>
          simp only [List.getElem?_cons_succ] at h ⊢
          exact loop_out step out n _ _ i r h

/-- C99: a field in the frequency domain gives the transforms of what its field in the spatial domain gives, at the same times. -/
theorem adaptive_domain (spl : Splines ℝ) (hspl : ExactOnEven spl) (padsize : ℕ → Res ℕ) (f : Field ℝ ℂ) (shape : List ℕ)
    (x0 h : ℕ → ℝ) (hg : OnGrid f shape true x0 h) (axis : ℤ) (d : ℕ) (hd : pyIdx shape.length axis = some d) :
    ∃ g, f.fft spl none "spatial" false = .ok g ∧ OnGrid g shape false x0 h ∧
      ∀ (n i : ℕ) (r : ℝ × Field ℝ ℂ), (propagateAdaptive spl padsize f axis none false n)[i]? = some (.ok r) →
        ∃ s, (propagateAdaptive spl padsize g axis none false n)[i]? = some (.ok (r.1, s)) ∧
          s.fft spl none "spatial" false = .ok r.2 := by
  obtain ⟨g, v, x, h1, h2, h3, h4⟩ := generator_eq spl hspl padsize f shape true x0 h hg axis d hd
  refine ⟨g, by simpa using h3, h2, ?_⟩
  intro n i r hr
  unfold propagateAdaptive at hr ⊢
  rw [until_all none (by simp) _ (generator_errors spl padsize f axis _ _).1] at hr
  rw [until_all none (by simp) _ (generator_errors spl padsize g axis _ _).1]
  unfold adaptiveGenerator at hr ⊢
  rw [h1] at hr
  rw [h4]
  exact loop_out _ _ n 0 g i r hr

/-! ### Examples -/

/-- A field with cells of size 1 and the value 1 everywhere. -/
def boxField (shape : List ℕ) : Field ℝ ℂ :=
  ⟨"f", "V/m", ⟨shape, fun _ => 1⟩, shape.map fun n => evenAxisOf "x" "m" 0 1 n, shape.map fun _ => some false, shape.map fun _ => none⟩

theorem boxField_grid (shape : List ℕ) (h1 : shape ≠ []) (h3 : shape.length ≤ 3) (h2 : ∀ n ∈ shape, 2 ≤ n) :
    OnGrid (boxField shape) shape false (fun _ => 1 / 2) (fun _ => 1) := by
  refine ⟨⟨⟨?_, ?_, ?_⟩, ?_, ?_⟩, rfl, h1, h3, h2, fun _ _ => one_pos, ?_, ?_, by simp⟩
  · simp only [boxField, List.map_map, Field.shape]
    conv_rhs => rw [← List.map_id shape]
    apply List.map_congr_left
    intro n _
    simp [Axis.len, evenAxisOf, ap_length]
  · simp [boxField, Field.shape]
  · simp [boxField, Field.shape]
  · intro ax hax
    simp only [boxField, List.mem_map] at hax
    obtain ⟨n, -, rfl⟩ := hax
    exact evenAxisOf_valid _ _ _ _ one_pos _
  · intro h0
    have := h2 0 h0
    omega
  · intro d hd
    simp [boxField, hd]
  · intro _ d hd
    refine ⟨evenAxisOf "x" "m" 0 1 shape[d], by simp [boxField, hd], ?_⟩
    have := evenAxisOf_even "x" "m" (0 : ℝ) 1 shape[d]
    rw [sub_self]
    exact this

theorem power2_above (l : ℕ) : (fun n => (.ok (fftPadsizePower2 n) : Res ℕ)) l = .ok (fftPadsizePower2 l) ∧ l ≤ fftPadsizePower2 l :=
  ⟨rfl, (padsize_power2 l).1.2.le⟩

example := adaptive_step_partial lineSplines lineSplines_exact _ _ power2_above (boxField [4, 3]) _ _ _
  (boxField_grid [4, 3] (by simp) (by simp) (by simp)) (by decide) 0 0 rfl 2 (by
    obtain ⟨e1, e2, -⟩ := coarse_small [4, 3] (by simp) (fun _ => 0) (fun _ => 1)
    rw [e1, e2]
    norm_num [meanWidth, List.range_succ, List.filter])

example := adaptive_2d_partial lineSplines lineSplines_exact _ _ power2_above (boxField [4, 3]) _ _ _
  (boxField_grid [4, 3] (by simp) (by simp) (by simp)) rfl (-1) 1 rfl 1 (by
    obtain ⟨e1, e2, -⟩ := coarse_small [4, 3] (by simp) (fun _ => 0) (fun _ => 1)
    rw [e1, e2]
    norm_num [meanWidth, List.range_succ, List.filter])

theorem halvings_big : halvings 4000 10001 = 2 ∧ halvings 4000 3 = 0 := by
  constructor
  · rw [halvings_succ (by decide), halvings_succ (by decide), halvings_le (by decide)]
  · exact halvings_le (by decide)

/-- 10001 and 3 points: the cells are joined in blocks of 4 along the first dimension, and the last cell is left out. -/
example := adaptive_step_partial lineSplines lineSplines_exact _ _ power2_above (boxField [10001, 3]) _ _ _
  (boxField_grid [10001, 3] (by simp) (by simp) (by simp)) (by decide) 0 0 rfl (10001 / 2) (by
    norm_num [coarseShape, coarseSize, halvings_big.1, halvings_big.2, meanWidth, List.range_succ, List.filter])

example (n : ℕ) := adaptive_3d_violated lineSplines lineSplines_exact _ _ power2_above (boxField [4, 3, 2]) _ _ _
  (boxField_grid [4, 3, 2] (by simp) (by simp) (by simp)) rfl (by decide) 0 0 rfl (some 1) n

example (n : ℕ) := adaptive_1d_violated lineSplines (fun n => .ok n) (boxField [4]) 4 _ _
  (boxField_grid [4] (by simp) (by simp) (by simp)) none n

example (n : ℕ) := adaptive_zeroth lineSplines lineSplines_exact (fun n => .ok n) (boxField [4, 3]) _ _ _ _
  (boxField_grid [4, 3] (by simp) (by simp) (by simp)) 0 0 rfl n

example := adaptive_domain lineSplines lineSplines_exact (fun n => .ok n) (fieldFreq 1) _ _ _ (fieldFreq_grid 1) 0 0 rfl

end

end Postpic.Props
