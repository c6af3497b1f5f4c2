import Verif.Lemmas.Spline
import Verif.Lemmas.FieldLinear

/-!
# Lemmas about linear interpolation and resampling
-/

set_option linter.unusedSectionVars false
set_option autoImplicit false

namespace Postpic.Interp

open Postpic

noncomputable section

variable {n : ℕ} {a b : ℝ}

theorem causalInit_comb (z : ℝ) (hn : 2 ≤ n) {u v w : ℕ → ℝ} (h : ∀ k < n, w k = a * u k + b * v k) :
    causalInit z n w = a * causalInit z n u + b * causalInit z n v := by
  unfold causalInit
  have e : ((List.range (n - 2)).map fun k => z ^ (k + 1) * (w (k + 1) + z ^ (n - 1) * w (n - 2 - k))) =
      (List.range (n - 2)).map fun k => a * (z ^ (k + 1) * (u (k + 1) + z ^ (n - 1) * u (n - 2 - k))) +
        b * (z ^ (k + 1) * (v (k + 1) + z ^ (n - 1) * v (n - 2 - k))) := by
    refine List.map_congr_left fun k hk => ?_
    have := List.mem_range.1 hk
    rw [h (k + 1) (by omega), h (n - 2 - k) (by omega)]
    ring
  rw [e, List.sum_map_add, List.sum_map_mul_left, List.sum_map_mul_left, h 0 (by omega), h (n - 1) (by omega)]
  ring

theorem causal_comb (z : ℝ) (hn : 2 ≤ n) {u v w : ℕ → ℝ} (h : ∀ k < n, w k = a * u k + b * v k) (i : ℕ) (hi : i < n) :
    causal z n w i = a * causal z n u i + b * causal z n v i := by
  induction i with
  | zero => exact causalInit_comb z hn h
  | succ i ih =>
    unfold causal
    rw [h _ hi, ih (by omega)]
    ring

theorem anticausal_comb (z : ℝ) (hn : 2 ≤ n) {u v w : ℕ → ℝ} (h : ∀ k < n, w k = a * u k + b * v k) (i : ℕ) :
    anticausal z n w i = a * anticausal z n u i + b * anticausal z n v i := by
  induction i with
  | zero =>
    unfold anticausal
    rw [h _ (show n - 2 < n by omega), h _ (show n - 1 < n by omega)]
    ring
  | succ i ih =>
    unfold anticausal
    rw [h _ (show n - 2 - i < n by omega), ih]
    ring

theorem poles_comb (hn : 2 ≤ n) (zs : List ℝ) {u v w : ℕ → ℝ} (h : ∀ k < n, w k = a * u k + b * v k) (i : ℕ) (hi : i < n) :
    zs.foldl (polePass n) w i = a * zs.foldl (polePass n) u i + b * zs.foldl (polePass n) v i := by
  induction zs generalizing u v w with
  | nil => exact h i hi
  | cons z zs ih =>
    refine ih fun k _ => ?_
    unfold polePass
    exact anticausal_comb z hn (fun k hk => causal_comb z hn h k hk) _

theorem filter1d_comb (order : ℕ) {u v w : ℕ → ℝ} (h : ∀ k < n, w k = a * u k + b * v k) (i : ℕ) (hi : i < n) :
    filter1d order n w i = a * filter1d order n u i + b * filter1d order n v i := by
  unfold filter1d
  by_cases hn : n ≤ 1
  · simp only [hn, if_true]
    exact h i hi
  · simp only [hn, if_false]
    refine poles_comb (by omega) _ (fun k hk => ?_) i hi
    rw [h k hk]
    ring

theorem filterAxes_comb (order : ℕ) : ∀ (shape : List ℕ) {u v w : List ℕ → ℝ},
    (∀ idx, InBounds shape idx → w idx = a * u idx + b * v idx) → ∀ idx, InBounds shape idx →
    filterAxes order shape w idx = a * filterAxes order shape u idx + b * filterAxes order shape v idx
  | [], u, v, w, h, idx, hi => by
    have := h idx hi
    unfold filterAxes
    exact this
  | n :: shape, u, v, w, h, idx, hi => by
    cases idx with
    | nil => simp [InBounds] at hi
    | cons i idx =>
      obtain ⟨h1, h2⟩ := Fields.inb_cons.1 hi
      unfold filterAxes
      refine filterAxes_comb order shape (fun t ht => ?_) idx h2
      exact filter1d_comb order (fun k hk => h _ (Fields.inb_cons.2 ⟨hk, ht⟩)) i h1

theorem stencil_comb (weight : ℕ → ℝ → ℕ → ℝ) (order : ℕ) : ∀ (shape : List ℕ) (cs : List ℝ) {u v w : List ℕ → ℝ}, 0 ∉ shape →
    cs.length = shape.length → (∀ idx, InBounds shape idx → w idx = a * u idx + b * v idx) →
    stencil weight order shape cs w = a * stencil weight order shape cs u + b * stencil weight order shape cs v
  | [], [], u, v, w, _, _, h => by
    unfold stencil
    exact h [] ⟨rfl, by simp⟩
  | n :: shape, c :: cs, u, v, w, h0, hl, h => by
    unfold stencil
    simp only [List.mem_cons, not_or] at h0
    have e : ∀ k, stencil weight order shape cs (fun idx => w (mirrorIndex n (centre order c - (order / 2 : ℕ) + k) :: idx)) =
        a * stencil weight order shape cs (fun idx => u (mirrorIndex n (centre order c - (order / 2 : ℕ) + k) :: idx)) +
        b * stencil weight order shape cs (fun idx => v (mirrorIndex n (centre order c - (order / 2 : ℕ) + k) :: idx)) := by
      intro k
      refine stencil_comb weight order shape cs h0.2 (by simpa using hl) fun idx hi => h _ (Fields.inb_cons.2 ⟨?_, hi⟩)
      rw [mirrorIndex_eq]
      exact mirrored_lt (by omega) _
    rw [← List.sum_map_mul_left, ← List.sum_map_mul_left, ← List.sum_map_add]
    refine congrArg List.sum (List.map_congr_left fun k _ => ?_)
    rw [e]
    ring

end

end Postpic.Interp

namespace Postpic.Fields

open Postpic Postpic.Axes Postpic.Spec Postpic.Interp

noncomputable section

/-- The third result is `a` times the first one plus `b` times the second one; the same exception otherwise. -/
def Comb3 (a b : ℝ) (x y z : Res ℝ) : Prop :=
  match x with
  | .error e => y = .error e ∧ z = .error e
  | .ok v => ∃ v' v'', y = .ok v' ∧ z = .ok v'' ∧ v'' = a * v + b * v'

theorem mapM_id_length {A : Type} : ∀ {l : List (Option A)} {r : List A}, l.mapM id = some r → r.length = l.length
  | [], r, h => by
    simp at h
    subst h
    rfl
  | x :: l, r, h => by
    rw [List.mapM_cons] at h
    cases x with
    | none => simp at h
    | some x =>
      cases hl : l.mapM id with
      | none => simp [hl] at h
      | some q =>
        simp [hl] at h
        subst h
        simp [mapM_id_length hl]

theorem spline_comb (order : ℕ) (mode : Mode) {a b : ℝ} {s : List ℕ} {u v w : List ℕ → ℝ}
    (h : ∀ idx, InBounds s idx → w idx = a * u idx + b * v idx) (cs : List ℝ) (hl : cs.length = s.length) :
    Comb3 a b (splineSample order mode 0 ⟨s, u⟩ cs) (splineSample order mode 0 ⟨s, v⟩ cs) (splineSample order mode 0 ⟨s, w⟩ cs) := by
  unfold splineSample
  have key : ∀ {u v w : List ℕ → ℝ}, (∀ idx, InBounds s idx → w idx = a * u idx + b * v idx) →
      Comb3 a b (interp splineWeights order mode 0 ⟨s, u⟩ cs) (interp splineWeights order mode 0 ⟨s, v⟩ cs)
        (interp splineWeights order mode 0 ⟨s, w⟩ cs) := by
    intro u v w h
    unfold interp
    simp only
    cases hm : (List.zipWith (mapCoordinate mode) s cs).mapM id with
    | none => exact ⟨0, 0, rfl, rfl, by simp⟩
    | some ds =>
      simp only
      by_cases h0 : 0 ∈ s
      · simp only [h0, if_true]
        exact ⟨rfl, rfl⟩
      · simp only [h0, if_false]
        refine ⟨_, _, rfl, rfl, stencil_comb _ _ s ds h0 ?_ h⟩
        have := mapM_id_length hm
        rw [List.length_zipWith] at this
        omega
  by_cases ho : 1 < order
  · simp only [ho, if_true]
    exact key fun idx hi => filterAxes_comb order s h idx hi
  · simp only [ho, if_false]
    exact key h

theorem sampleAt_comb (order : ℕ) (mode : Mode) {a b : ℝ} {f g h : Field ℝ ℝ} (hc : Combination a b f g h) (newaxes : List (Axis ℝ))
    (transform : List ℝ → List ℝ) (idx : List ℕ) :
    Comb3 a b (f.sampleAt (splineSample order mode 0) newaxes transform idx) (g.sampleAt (splineSample order mode 0) newaxes transform idx)
      (h.sampleAt (splineSample order mode 0) newaxes transform idx) := by
  obtain ⟨n, u, ⟨s, v⟩, ax, ats, tao⟩ := f
  obtain ⟨n', u', ⟨s', v'⟩, ax', ats', tao'⟩ := g
  obtain ⟨n'', u'', ⟨s'', v''⟩, ax'', ats'', tao''⟩ := h
  obtain ⟨⟨h1, h2, h3, h4⟩, ⟨k1, k2, k3, k4⟩, hv⟩ := hc
  simp only [Field.shape] at h1 h2 h3 h4 k1 k2 k3 k4 hv
  subst h1 h2 h3 h4 k1 k2 k3 k4
  unfold Field.sampleAt Field.shape
  simp only
  cases (ax''.zip (transform (gridPoint newaxes idx))).mapM fun p => p.1.valueToIndex p.2 with
  | error e => exact ⟨rfl, rfl⟩
  | ok px =>
    simp only [bind, Except.bind]
    by_cases hl : px.length ≠ s''.length
    · simp only [if_pos hl]
      exact ⟨rfl, rfl⟩
    · simp only [if_neg hl]
      exact spline_comb order mode (fun idx hi => hv idx hi) px (not_not.1 hl)

theorem mapM_comb {A : Type} {a b : ℝ} {u v w : A → Res ℝ} (h : ∀ x, Comb3 a b (u x) (v x) (w x)) : ∀ l : List A,
    (∃ e, l.mapM u = .error e ∧ l.mapM v = .error e ∧ l.mapM w = .error e) ∨
    ((∃ r, l.mapM u = .ok r) ∧ (∃ r, l.mapM v = .ok r) ∧ (∃ r, l.mapM w = .ok r))
  | [] => Or.inr ⟨⟨_, rfl⟩, ⟨_, rfl⟩, ⟨_, rfl⟩⟩
  | x :: l => by
    have hx := h x
    simp only [List.mapM_cons]
    unfold Comb3 at hx
    cases hu : u x with
    | error e =>
      rw [hu] at hx
      simp only at hx
      rw [hx.1, hx.2]
      exact Or.inl ⟨e, rfl, rfl, rfl⟩
    | ok r =>
      rw [hu] at hx
      obtain ⟨r', r'', e1, e2, -⟩ := hx
      rw [e1, e2]
      rcases mapM_comb h l with ⟨e, i1, i2, i3⟩ | ⟨⟨q1, i1⟩, ⟨q2, i2⟩, ⟨q3, i3⟩⟩
      · rw [i1, i2, i3]
        exact Or.inl ⟨e, rfl, rfl, rfl⟩
      · rw [i1, i2, i3]
        exact Or.inr ⟨⟨_, rfl⟩, ⟨_, rfl⟩, ⟨_, rfl⟩⟩

theorem mapCoordinates_comb (order : ℕ) (mode : Mode) {a b : ℝ} {f g h : Field ℝ ℝ} (hc : Combination a b f g h) (newaxes : List (Axis ℝ))
    (transform : Option ((List ℝ → List ℝ) × (List ℝ → ℝ))) (pres : Bool) :
    LinearFor (fun x => x.mapCoordinates (splineSample order mode 0) newaxes transform pres) a b f g h := by
  have hs := sampleAt_comb order mode hc newaxes (transform.getD (id, fun _ => 1)).1
  have hm := mapM_comb hs (Interp.indices (newaxes.map Axis.len))
  have hd : g.dims = f.dims := by unfold Field.dims Field.shape; rw [hc.first.shape]
  have hd' : h.dims = f.dims := by unfold Field.dims Field.shape; rw [hc.second.shape]
  have ht : g.transformState = f.transformState := by unfold Field.transformState; rw [hc.first.ats]
  have ht' : h.transformState = f.transformState := by unfold Field.transformState; rw [hc.second.ats]
  unfold LinearFor Field.mapCoordinates
  simp only [hd, hd', ht, ht']
  by_cases h1 : pres = true ∧ (newaxes.length : ℤ) ≠ f.dims
  · simp only [if_pos h1]
    exact ⟨rfl, rfl⟩
  simp only [if_neg h1]
  simp only [bind, Except.bind, pure, Except.pure]
  rcases hm with ⟨e, i1, i2, i3⟩ | ⟨⟨q1, i1⟩, ⟨q2, i2⟩, ⟨q3, i3⟩⟩
  · rw [i1, i2, i3]
    exact ⟨rfl, rfl⟩
  · rw [i1, i2, i3]
    refine ⟨_, _, rfl, rfl, ⟨rfl, rfl, rfl, rfl⟩, ⟨rfl, rfl, rfl, rfl⟩, fun idx _ => ?_⟩
    have hx := hs idx
    unfold Comb3 at hx
    cases e1 : f.sampleAt (splineSample order mode 0) newaxes (transform.getD (id, fun _ => 1)).1 idx with
    | error e =>
      rw [e1] at hx
      simp only at hx
      cases pres <;> simp [e1, hx.1, hx.2]
    | ok v =>
      rw [e1] at hx
      obtain ⟨v', v'', e2, e3, rfl⟩ := hx
      cases pres
      · simp [e1, e2, e3]
      · simp [e1, e2, e3]
        ring

end

end Postpic.Fields
