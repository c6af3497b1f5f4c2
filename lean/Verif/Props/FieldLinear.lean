import Verif.Lemmas.FieldLinear
import Verif.Props.Fft

/-!
# Linear methods of fields are linear (C115)
-/

set_option linter.unusedSectionVars false

set_option autoImplicit false

namespace Postpic.Props

open Postpic Postpic.Axes Postpic.Fields Postpic.Spec

section

variable {R K V : Type} [_root_.Field K] [LinearOrder K] [IsStrictOrderedRing K] [AddCommGroup V] [Module K V] [Ring R] [Module R V]
  [SMulCommClass K R V]

/-- The triples `(a x + b y, (x, y))`. -/
def combined (K : Type) {R V : Type} [_root_.Field K] [AddCommGroup V] [Module K V] [Ring R] [Module R V] [SMulCommClass K R V] (a b : R) :
    Submodule K (V × V × V) where
  carrier := { p | p.1 = a • p.2.1 + b • p.2.2 }
  zero_mem' := by simp
  add_mem' := by
    rintro ⟨v, x, y⟩ ⟨v', x', y'⟩ h h'
    simp only [Set.mem_setOf_eq] at h h' ⊢
    simp only [Prod.mk_add_mk, h, h', smul_add]
    abel
  smul_mem' := by
    rintro c ⟨v, x, y⟩ h
    simp only [Set.mem_setOf_eq] at h ⊢
    simp only [Prod.smul_mk, h, smul_add, smul_comm c]

/-- A method which keeps every linear relation between the samples of two fields is linear. -/
theorem linearFor_of_rel {T : ∀ (U : Type) [AddCommGroup U] [Module K U], Fields.Field K U → Res (Fields.Field K U)}
    (hT : ∀ {V W : Type} [AddCommGroup V] [Module K V] [AddCommGroup W] [Module K W] (S : Submodule K (V × W)) (f : Fields.Field K V)
      (f' : Fields.Field K W), Rel (inS S) f f' → f.Ok → BothGive (Rel (inS S)) (T V f) (T W f'))
    (a b : R) {f g h : Fields.Field K V} (hf : f.Ok) (hc : Combination a b f g h) : LinearFor (T V) a b f g h := by
  let P : Fields.Field K (V × V) := ⟨"", "", ⟨f.matrix.shape, fun idx => (f.matrix.at' idx, g.matrix.at' idx)⟩, f.axes, f.ats, f.tao⟩
  have ha : ∀ {x : Fields.Field K V}, SameAxes f x → x.Ok := by
    intro x hx
    unfold Field.Ok Field.shape
    rw [hx.shape, hx.axes, hx.ats, hx.tao]
    exact hf
  have hP : ∀ {x : Fields.Field K V}, SameAxes f x → SameAxes x P := fun hx =>
    ⟨hx.shape.symm, hx.axes.symm, hx.ats.symm, hx.tao.symm⟩
  have R1 := hT (combined K a b) h P ⟨hP hc.second, fun idx hi => by
    rw [hc.second.shape] at hi
    exact hc.values idx hi⟩ (ha hc.second)
  have R2 := hT (combined K (1 : R) 0) f P ⟨hP ⟨rfl, rfl, rfl, rfl⟩, fun idx _ => by
    change f.matrix.at' idx = (1 : R) • f.matrix.at' idx + (0 : R) • g.matrix.at' idx
    simp⟩ hf
  have R3 := hT (combined K (0 : R) 1) g P ⟨hP hc.first, fun idx _ => by
    change g.matrix.at' idx = (0 : R) • f.matrix.at' idx + (1 : R) • g.matrix.at' idx
    simp⟩ (ha hc.first)
  unfold LinearFor
  cases hp : T (V × V) P with
  | error e =>
    rw [hp] at R1 R2 R3
    cases h1 : T V h with
    | ok a => rw [h1] at R1; exact R1.elim
    | error e1 =>
    cases h2 : T V f with
    | ok a => rw [h2] at R2; exact R2.elim
    | error e2 =>
    cases h3 : T V g with
    | ok a => rw [h3] at R3; exact R3.elim
    | error e3 =>
    rw [h1] at R1; rw [h2] at R2; rw [h3] at R3
    have R1 : e1 = e := R1
    have R2 : e2 = e := R2
    have R3 : e3 = e := R3
    subst R1 R2 R3
    exact ⟨rfl, rfl⟩
  | ok p =>
    rw [hp] at R1 R2 R3
    cases h1 : T V h with
    | error a => rw [h1] at R1; exact R1.elim
    | ok h' =>
    cases h2 : T V f with
    | error a => rw [h2] at R2; exact R2.elim
    | ok f' =>
    cases h3 : T V g with
    | error a => rw [h3] at R3; exact R3.elim
    | ok g' =>
    rw [h1] at R1; rw [h2] at R2; rw [h3] at R3
    obtain ⟨s1, v1⟩ := R1
    obtain ⟨s2, v2⟩ := R2
    obtain ⟨s3, v3⟩ := R3
    have e1 : h'.matrix.shape = f'.matrix.shape := s1.shape.symm.trans s2.shape
    have e3 : g'.matrix.shape = f'.matrix.shape := s3.shape.symm.trans s2.shape
    refine ⟨g', h', rfl, rfl, ⟨e3, s3.axes.symm.trans s2.axes, s3.ats.symm.trans s2.ats, s3.tao.symm.trans s2.tao⟩,
      ⟨e1, s1.axes.symm.trans s2.axes, s1.ats.symm.trans s2.ats, s1.tao.symm.trans s2.tao⟩, fun idx hi => ?_⟩
    have w1 : h'.matrix.at' idx = a • (p.matrix.at' idx).1 + b • (p.matrix.at' idx).2 := v1 idx (by
      rw [e1]
      exact hi)
    have w2 : f'.matrix.at' idx = (1 : R) • (p.matrix.at' idx).1 + (0 : R) • (p.matrix.at' idx).2 := v2 idx hi
    have w3 : g'.matrix.at' idx = (0 : R) • (p.matrix.at' idx).1 + (1 : R) • (p.matrix.at' idx).2 := v3 idx (by
      rw [e3]
      exact hi)
    rw [w1, w2, w3]
    simp

/-- C115: sums, means, integrals, derivatives, reduced resolutions, selections and rearrangements, in any order, are linear in the values of the
field; whether they raise an exception does not depend on the values. -/
theorem methods_linear (spl : Splines K) (ms : List (LinearMethod K)) (a b : R) {f g h : Fields.Field K V}
    (hf : AxesDescribe f.shape (f.axes.map Axis.len) f.ats.length f.tao.length) (hc : Combination a b f g h) :
    LinearFor (applyAll spl ms) a b f g h :=
  linearFor_of_rel (T := fun _ _ _ => applyAll spl ms) (fun _ _ _ hr hk => applyAll_rel spl ms hr hk) a b hf hc

/-- C115: padding with zeros is linear. -/
theorem pad_linear [FloorRing K] (spl : Splines K) (w : List (PadWidth K × PadWidth K)) (a b : R) {f g h : Fields.Field K V}
    (hf : AxesDescribe f.shape (f.axes.map Axis.len) f.ats.length f.tao.length) (hc : Combination a b f g h) :
    LinearFor (fun x => x.pad spl w 0) a b f g h :=
  linearFor_of_rel (T := fun _ _ _ x => x.pad spl w 0) (fun _ _ _ hr hk => pad_rel spl hr hk w) a b hf hc

end

section

theorem linearFor_bind {R K V : Type} [Add V] [SMul R V] {T U : Fields.Field K V → Res (Fields.Field K V)} {a b : R} {f g h : Fields.Field K V}
    (hT : LinearFor T a b f g h) (hU : ∀ F G H, Combination a b F G H → LinearFor U a b F G H) :
    LinearFor (fun x => T x >>= U) a b f g h := by
  unfold LinearFor at hT ⊢
  cases hf : T f with
  | error e =>
    rw [hf] at hT
    simp only at hT
    simp only [hf, hT.1, hT.2, bind, Except.bind]
    exact ⟨trivial, trivial⟩
  | ok F =>
    rw [hf] at hT
    obtain ⟨G, H, hG, hH, hc⟩ := hT
    simp only [hf, hG, hH, bind, Except.bind]
    exact hU F G H hc

/-- What `fft` finds out without the values: the domain, numbers for every axis, the new axes. -/
noncomputable def fftPlan (spl : Splines ℝ) (f : Fields.Field ℝ ℂ) (axes : Option (List ℤ)) (signs : String) :
    Res (Bool × List FftAxis × List (Axis ℝ)) := do
  if ¬ (signs = "spatial" ∨ signs = "temporal") then throw .valueError
  let axs := ((axes.getD f.rangeDims).dedup).insertionSort (· ≤ ·)
  if !(← allLinear f.axes axs) then throw .valueError
  let state ← match ← collectiveState f.ats axs with
    | some b => (pure b : Res Bool)
    | none => throw .valueError
  let l ← axs.mapM f.fftAxis
  if axs.any (· < 0) then throw .keyError
  let axes' ← setConjugateAxes spl f.shape state l f.axes
  return (state, l, axes')

/-- What `fft` does with the values. -/
noncomputable def fftValues (shape : List ℕ) (axes : List (Axis ℝ)) (signs : String) (old : Bool) (p : Bool × List FftAxis × List (Axis ℝ))
    (v : List ℕ → ℂ) (idx : List ℕ) : ℂ :=
  let conj : ℂ → ℂ := fun z => if signs = "temporal" then (starRingEnd ℂ) z else z
  conj (fftNorm p.2.1 * dft p.1 shape (p.2.1.map (·.i)) (fun idx => conj (v idx) *
      linearPhase p.1 axes (p.2.1.map fun q => (q.i, if old && p.1 then 0 else q.k0)) 0 idx) idx *
    linearPhase (!p.1) p.2.2 (p.2.1.map fun q => (q.i, if old && !p.1 then 0 else -q.x0)) (p.2.1.map fun q => q.x0 * q.k0).sum idx)

theorem fft_plan (spl : Splines ℝ) (f : Fields.Field ℝ ℂ) (axes : Option (List ℤ)) (signs : String) (old : Bool) :
    f.fft spl axes signs old = (fftPlan spl f axes signs).map fun p =>
      { f with
        matrix := ⟨f.shape, fftValues f.shape f.axes signs old p f.matrix.at'⟩, axes := p.2.2,
        ats := p.2.1.foldl (fun s q => s.set q.i (some !p.1)) f.ats, tao := p.2.1.foldl (fun s q => s.set q.i (some q.x0)) f.tao } := by
  unfold Field.fft fftPlan
  by_cases h1 : ¬ (signs = "spatial" ∨ signs = "temporal")
  · rw [if_pos h1, if_pos h1]
    rfl
  rw [if_neg h1, if_neg h1]
  simp only [bind, Except.bind, pure, Except.pure]
  generalize ((axes.getD f.rangeDims).dedup).insertionSort (· ≤ ·) = axs
  cases allLinear f.axes axs with
  | error e => rfl
  | ok b =>
    cases b with
    | false => rfl
    | true =>
      simp only [Bool.not_true, Bool.false_eq_true, if_false]
      cases collectiveState f.ats axs with
      | error e => rfl
      | ok c =>
        cases c with
        | none => rfl
        | some c =>
          simp only
          cases axs.mapM f.fftAxis with
          | error e => rfl
          | ok l =>
            simp only
            by_cases hn : (axs.any fun x => decide (x < 0)) = true
            · rw [if_pos hn, if_pos hn]
              rfl
            · rw [if_neg hn, if_neg hn]
              cases setConjugateAxes spl f.shape c l f.axes with
              | error e => rfl
              | ok ax => rfl

theorem fftPlan_same (spl : Splines ℝ) {f g : Fields.Field ℝ ℂ} (h : SameAxes f g) (axes : Option (List ℤ)) (signs : String) :
    fftPlan spl g axes signs = fftPlan spl f axes signs := by
  obtain ⟨n, u, ⟨s, a⟩, ax, ats, tao⟩ := f
  obtain ⟨n', u', ⟨s', a'⟩, ax', ats', tao'⟩ := g
  obtain ⟨h1, h2, h3, h4⟩ := h
  simp only at h1 h2 h3 h4
  subst h1 h2 h3 h4
  rfl

/-- The discrete transform is linear. -/
theorem dft_linear (inv : Bool) {shape : List ℕ} (l : List ℕ) (a b : ℂ) {u v w : List ℕ → ℂ}
    (h : ∀ idx, InBounds shape idx → w idx = a * u idx + b * v idx) (idx : List ℕ) (hi : InBounds shape idx) :
    dft inv shape l w idx = a * dft inv shape l u idx + b * dft inv shape l v idx := by
  unfold dft
  induction l generalizing u v w with
  | nil => exact h idx hi
  | cons i l ih =>
    refine ih fun idx hi => ?_
    unfold dftAlong
    rw [Finset.mul_sum, Finset.mul_sum, ← Finset.sum_add_distrib]
    refine Finset.sum_congr rfl fun j hj => ?_
    have hj := Finset.mem_range.1 hj
    have hn : shape[i]? = some (shape.getD i 0) := by
      rw [List.getD_eq_getElem?_getD] at hj ⊢
      cases hs : shape[i]? with
      | none => rw [hs] at hj; simp at hj
      | some n => rfl
    rw [h _ (inBounds_set hi hn hj)]
    ring

theorem fftValues_linear {shape : List ℕ} (axes : List (Axis ℝ)) (signs : String) (old : Bool) (p : Bool × List FftAxis × List (Axis ℝ))
    (a b : ℂ) {u v w : List ℕ → ℂ} (h : ∀ idx, InBounds shape idx → w idx = a * u idx + b * v idx) (idx : List ℕ) (hi : InBounds shape idx) :
    fftValues shape axes signs old p w idx = a * fftValues shape axes signs old p u idx + b * fftValues shape axes signs old p v idx := by
  unfold fftValues
  obtain ⟨state, l, axes'⟩ := p
  simp only
  by_cases ht : signs = "temporal"
  · simp only [ht, if_true]
    rw [dft_linear state (l.map (·.i)) (starRingEnd ℂ a) (starRingEnd ℂ b)
      (u := fun idx => (starRingEnd ℂ) (u idx) * linearPhase state axes (l.map fun q => (q.i, if (old && state) = true then 0 else q.k0)) 0 idx)
      (v := fun idx => (starRingEnd ℂ) (v idx) * linearPhase state axes (l.map fun q => (q.i, if (old && state) = true then 0 else q.k0)) 0 idx)
      (fun idx hi => by rw [h idx hi, map_add, map_mul, map_mul]; ring) idx hi]
    simp only [map_mul, map_add, Complex.conj_conj]
    ring
  · simp only [ht, if_false]
    rw [dft_linear state (l.map (·.i)) a b
      (u := fun idx => u idx * linearPhase state axes (l.map fun q => (q.i, if (old && state) = true then 0 else q.k0)) 0 idx)
      (v := fun idx => v idx * linearPhase state axes (l.map fun q => (q.i, if (old && state) = true then 0 else q.k0)) 0 idx)
      (fun idx hi => by rw [h idx hi]; ring) idx hi]
    ring

/-- C115: the Fourier transform is linear, for complex factors, all axes, both conventions of the signs, and the old behaviour. -/
theorem fft_linear (spl : Splines ℝ) (axes : Option (List ℤ)) (signs : String) (old : Bool) (a b : ℂ) {f g h : Fields.Field ℝ ℂ}
    (hc : Combination a b f g h) : LinearFor (fun x => x.fft spl axes signs old) a b f g h := by
  obtain ⟨s1, s2, hv⟩ := hc
  unfold LinearFor
  simp only [fft_plan]
  rw [fftPlan_same spl s1, fftPlan_same spl s2]
  cases hp : fftPlan spl f axes signs with
  | error e => exact ⟨rfl, rfl⟩
  | ok p =>
    have e1 : g.shape = f.shape := s1.shape
    have e2 : h.shape = f.shape := s2.shape
    simp only [Except.map, s1.ats, s1.tao, s1.axes, e1, s2.ats, s2.tao, s2.axes, e2]
    exact ⟨_, _, rfl, rfl, ⟨rfl, rfl, rfl, rfl⟩, ⟨rfl, rfl, rfl, rfl⟩, fun idx hi => fftValues_linear _ _ _ p a b hv idx hi⟩

/-- C115: so is `ensure_transform_state`. -/
theorem ensure_state_linear (spl : Splines ℝ) (req : StateRequest) (a b : ℂ) {f g h : Fields.Field ℝ ℂ}
    (hc : Combination a b f g h) : LinearFor (fun x => x.ensureTransformState spl req) a b f g h := by
  have e : ∀ x : Fields.Field ℝ ℂ, SameAxes f x →
      x.ensureTransformState spl req = (toTransform f.ats (req.items f.dims.toNat) >>= fun l => if l = [] then .ok x else x.fft spl (some l) "spatial" false) := by
    intro x hx
    have hd : x.dims = f.dims := by
      unfold Field.dims Field.shape
      rw [hx.shape]
    unfold Field.ensureTransformState
    rw [hx.ats, hd]
    rfl
  unfold LinearFor
  simp only [e f ⟨rfl, rfl, rfl, rfl⟩, e g hc.first, e h hc.second]
  cases toTransform f.ats (req.items f.dims.toNat) with
  | error e => exact ⟨rfl, rfl⟩
  | ok l =>
    by_cases hl : l = []
    · simp only [bind, Except.bind, hl, if_true]
      exact ⟨_, _, rfl, rfl, hc⟩
    · simp only [bind, Except.bind, hl, if_false]
      exact fft_linear spl (some l) "spatial" false a b hc

/-- C115: so is `shift_grid_by`. -/
theorem shift_linear (spl : Splines ℝ) (dx : List (ℤ × ℝ)) (a b : ℂ) {f g h : Fields.Field ℝ ℂ}
    (hc : Combination a b f g h) : LinearFor (fun x => x.shiftGridBy spl dx) a b f g h := by
  unfold Field.shiftGridBy
  by_cases hd : (dx.any fun p => decide (p.1 < 0 ∨ 2 < p.1)) = true
  · simp only [hd, if_true]
    exact ⟨rfl, rfl⟩
  · simp only [hd, Bool.false_eq_true, if_false]
    refine linearFor_bind (T := fun x => x.fft spl (some ((dx.map (·.1)).insertionSort (· ≤ ·))) "spatial" false)
      (U := fun g => addOrigins dx g.tao >>= fun tao => Field.fft spl { g with tao := tao } (some ((dx.map (·.1)).insertionSort (· ≤ ·))) "spatial" false)
      (fft_linear spl (some ((dx.map (·.1)).insertionSort (· ≤ ·))) "spatial" false a b hc) fun F G H hc => ?_
    unfold LinearFor
    simp only [hc.first.tao, hc.second.tao]
    cases addOrigins dx F.tao with
    | error e => exact ⟨rfl, rfl⟩
    | ok tao =>
      exact fft_linear spl (some ((dx.map (·.1)).insertionSort (· ≤ ·))) "spatial" false a b (f := { F with tao := tao }) (g := { G with tao := tao })
        (h := { H with tao := tao }) ⟨⟨hc.first.shape, hc.first.axes, hc.first.ats, rfl⟩, ⟨hc.second.shape, hc.second.axes, hc.second.ats, rfl⟩, hc.values⟩

end

/-- Another field on the axes of `field43`. -/
def field43b : Fields.Field ℚ ℚ := { field43 with name := "Ey", matrix := ⟨[4, 3], fun idx => (idx.getD 0 0 : ℚ) ^ 2⟩ }

/-- `3 field43 - 2 field43b`. -/
def field43c : Fields.Field ℚ ℚ :=
  { field43 with matrix := ⟨[4, 3], fun idx => (3 : ℚ) * (100 * idx.getD 0 0 + idx.getD 1 0) + (-2) * (idx.getD 0 0 : ℚ) ^ 2⟩ }

/-- A derivative, the transposed field, half the resolution, an integral, a mean. -/
def someLinear : List (LinearMethod ℚ) :=
  [.derivative 0, .move (.transpose none), .halfResolution 1, .trapezoid (some [0]), .mean (some [0]) true]

example : AxesDescribe field43.shape (field43.axes.map Axis.len) field43.ats.length field43.tao.length ∧
    Combination (3 : ℚ) (-2) field43 field43b field43c ∧
    ((applyAll midSplines someLinear field43).map fun f => (f.shape, values f)) = .ok ([1], [400]) ∧
    ((applyAll midSplines someLinear field43b).map fun f => (f.shape, values f)) = .ok ([1], [12]) ∧
    ((applyAll midSplines someLinear field43c).map fun f => (f.shape, values f)) = .ok ([1], [1176]) := by
  refine ⟨⟨by decide +kernel, by decide +kernel, by decide +kernel⟩,
    ⟨⟨by decide +kernel, rfl, rfl, rfl⟩, ⟨by decide +kernel, rfl, rfl, rfl⟩, fun _ _ => rfl⟩, ?_, ?_, ?_⟩
  · decide +kernel
  · decide +kernel
  · decide +kernel

/-- A field on the axes of `field32`, and a combination of both with complex factors. -/
example : ∃ g h : Fields.Field ℝ ℂ, Combination Complex.I 2 field32 g h ∧ Transformable field32 [1, 0] false (fun d => if d = 0 then 1 else -1)
    (fun d => if d = 0 then 2 else 1 / 2) :=
  ⟨{ field32 with matrix := ⟨[3, 2], fun _ => 1⟩ },
    { field32 with matrix := ⟨[3, 2], fun idx => Complex.I • field32.matrix.at' idx + (2 : ℂ) • 1⟩ },
    ⟨⟨rfl, rfl, rfl, rfl⟩, ⟨rfl, rfl, rfl, rfl⟩, fun _ _ => rfl⟩, field32_dims⟩

end Postpic.Props
