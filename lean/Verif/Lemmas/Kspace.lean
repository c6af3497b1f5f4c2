import Verif.Spec.Kspace
import Verif.Lemmas.FftShift

/-!
# Lemmas on the reconstruction of the k-space
-/

set_option autoImplicit false

namespace Postpic.Spec

open Postpic Postpic.Axes Postpic.Fields

noncomputable section

variable {f : Field ℝ ℂ} {shape : List ℕ} {state : Bool} {x0 h : ℕ → ℝ}

/-- The dimensions as a list. -/
theorem OnGrid.rangeDims (hg : OnGrid f shape state x0 h) :
    f.rangeDims = (List.range shape.length).map Int.ofNat := by
  unfold Field.rangeDims
  rw [dims_sound hg.sound, hg.size]
  rfl

theorem OnGrid.range_ne (hg : OnGrid f shape state x0 h) : List.range shape.length ≠ [] := by
  have := hg.some_dim
  simpa using this

theorem OnGrid.collective (hg : OnGrid f shape state x0 h) :
    collectiveState f.ats f.rangeDims = .ok (some state) := by
  rw [hg.rangeDims]
  exact collectiveState_eq hg.range_ne fun d hd => hg.states d (List.mem_range.1 hd)

/-- The number of points along a dimension. -/
theorem OnGrid.points (hg : OnGrid f shape state x0 h) {d : ℕ} (hd : d < shape.length) :
    shape[d]? = some (shape.getD d 0) ∧ 2 ≤ shape.getD d 0 := by
  have h1 : shape[d]? = some (shape.getD d 0) := by
    rw [List.getD_eq_getElem?_getD, List.getElem?_eq_getElem hd]; rfl
  exact ⟨h1, hg.two _ (List.mem_of_getElem? h1)⟩

theorem OnGrid.axis_len (hg : OnGrid f shape state x0 h) {d : ℕ} {ax : Axis ℝ} (hax : f.axes[d]? = some ax) :
    shape[d]? = some ax.len := by
  rw [← hg.size, ← hg.sound.ok.lengths, List.getElem?_map, hax]
  rfl

theorem gridData_ap (a s : ℝ) {n : ℕ} (hn : 0 < n) : gridData (ap a s n) = .ok (a, ((n : ℝ) - 1) * s) := by
  have h1 := pyGet_ap a s hn
  have h2 : pyGet (ap a s n) (-1) = .ok (a + ((n - 1 : ℕ) : ℝ) * s) := by
    refine pyGet_of (k := n - 1) ?_ (ap_get a s n (n - 1) (by omega))
    rw [ap_length]
    unfold pyIdx
    rw [if_neg (by omega), if_pos (by omega)]
    congr 1
    omega
  unfold gridData
  rw [h1]
  simp only [bind, Except.bind]
  rw [h2]
  simp only [pure, Except.pure]
  congr 2
  rw [Nat.cast_sub (by omega)]
  push_cast
  ring

theorem gridStep_ap (a s : ℝ) {n : ℕ} (hn : 2 ≤ n) : gridStep (ap a s n) = .ok s := by
  have h1 := pyGet_ap a s (n := n) (by omega)
  have h2 : pyGet (ap a s n) ((1 : ℕ) : ℤ) = .ok (a + ((1 : ℕ) : ℝ) * s) := pyGet_nat (ap_get a s n 1 (by omega))
  unfold gridStep
  rw [h1]
  simp only [bind, Except.bind]
  rw [show (1 : ℤ) = ((1 : ℕ) : ℤ) from rfl, h2]
  simp only [pure, Except.pure]
  congr 1
  push_cast
  ring

/-- The conjugate grid of a field in the frequency domain is its spatial grid. -/
theorem OnGrid.conjugate (hg : OnGrid f shape true x0 h) {d : ℕ} (hd : d < shape.length) :
    f.conjugateGrid (Int.ofNat d) = .ok (ap (x0 d) (h d) (shape.getD d 0)) := by
  obtain ⟨h1, h2⟩ := hg.points hd
  obtain ⟨ht, ax, k0, hax, he⟩ := hg.frequency rfl d _ h1
  have hlen := hg.axis_len hax
  rw [h1] at hlen
  have hlen := Option.some.inj hlen
  have hh := hg.pos d hd
  have hn : (0 : ℝ) < (shape.getD d 0 : ℕ) := by exact_mod_cast (by omega : 0 < shape.getD d 0)
  have := Real.pi_pos
  have hdk : 0 < 2 * Real.pi / ((shape.getD d 0 : ℕ) * h d) := by positivity
  have hl := Lin.of_even he hdk (by rw [← hlen]; omega)
  have := conjugateGrid_eq hg.sound hax ht hl
  rw [Int.ofNat_eq_natCast, this, ← hlen]
  congr 2
  field_simp

theorem mapM_map_all {β : Type} {g : ℤ → Res β} {v : ℕ → β} {l : List ℕ}
    (h : ∀ d ∈ l, g (Int.ofNat d) = .ok (v d)) : (l.map Int.ofNat).mapM g = .ok (l.map v) := by
  apply mapM_of_forall2
  rw [List.forall₂_map_left_iff, List.forall₂_map_right_iff, List.forall₂_same]
  exact h

theorem OnGrid.grids (hg : OnGrid f shape true x0 h) :
    f.conjugateGrids = .ok ((List.range shape.length).map fun d => ap (x0 d) (h d) (shape.getD d 0)) := by
  unfold Field.conjugateGrids
  rw [hg.rangeDims]
  exact mapM_map_all fun d hd => hg.conjugate (List.mem_range.1 hd)

/-- Origins and box lengths. -/
theorem OnGrid.data (hg : OnGrid f shape state x0 h) :
    f.spatialData = .ok ((List.range shape.length).map fun d => (x0 d, ((shape.getD d 0 : ℕ) - 1 : ℝ) * h d)) := by
  unfold Field.spatialData
  rw [hg.collective]
  cases state with
  | true =>
    simp only [bind, Except.bind]
    rw [hg.rangeDims]
    apply mapM_map_all
    intro d hd
    have hd := List.mem_range.1 hd
    rw [hg.conjugate hd]
    exact gridData_ap _ _ (by have := (hg.points hd).2; omega)
  | false =>
    simp only [bind, Except.bind]
    apply mapM_of_forall2
    have hlen : f.axes.length = shape.length := by rw [ok_axes_length hg.sound.ok, hg.size]
    rw [List.forall₂_iff_get]
    refine ⟨by simp [hlen], ?_⟩
    intro d hd1 hd2
    have hd : d < shape.length := by omega
    obtain ⟨ax, hax, he⟩ := hg.spatial rfl d hd
    have h1 := hg.axis_len hax
    rw [(hg.points hd).1] at h1
    have h1 := Option.some.inj h1
    have hl := Lin.of_even he (hg.pos d hd) (by rw [← h1]; have := (hg.points hd).2; omega)
    have hax' : f.axes.get ⟨d, hd1⟩ = ax := by
      have := (List.getElem?_eq_some_iff.1 hax).2
      simpa using this
    rw [hax', hl.grid, gridData_ap _ _ hl.len, ← h1]
    simp

theorem toTransform_all (ats : List (Option Bool)) (s b : Bool) (l : List ℕ)
    (h : ∀ d ∈ l, ats[d]? = some (some s)) :
    toTransform ats (l.map fun (i : ℕ) => ((i : ℤ), b)) = .ok (if s = b then [] else l.map Int.ofNat) := by
  induction l with
  | nil => simp [toTransform]
  | cons d l ih =>
    simp only [List.map_cons, toTransform, pyGet_nat (h d (by simp)), ih fun e he => h e (by simp [he]), bind, Except.bind,
      pure, Except.pure]
    by_cases hs : s = b
    · simp [hs]
    · simp [hs]

/-- The field is ready for the transform of all dimensions. -/
theorem OnGrid.transformable (hg : OnGrid f shape state x0 h) :
    ∃ e0 s, Transformable f (List.range shape.length) state e0 s ∧
      (state = false → (∀ d, e0 d = x0 d - h d / 2) ∧ ∀ d, s d = h d) ∧
      (state = true → ∀ d < shape.length, s d = 2 * Real.pi / ((shape.getD d 0 : ℕ) * h d)) := by
  have hnum : ∀ d ∈ List.range shape.length, d ≤ 2 := fun d hd => by
    have := List.mem_range.1 hd
    have := hg.three
    omega
  have hst : ∀ d ∈ List.range shape.length, f.ats[d]? = some (some state) :=
    fun d hd => hg.states d (List.mem_range.1 hd)
  have htwo : ∀ d ∈ List.range shape.length, ∀ n, f.shape[d]? = some n → 2 ≤ n := by
    intro d hd n hn
    rw [hg.size] at hn
    exact hg.two n (List.mem_of_getElem? hn)
  cases state with
  | false =>
    exact ⟨fun d => x0 d - h d / 2, h, ⟨⟨hg.range_ne, hnum, hst, fun d hd => hg.pos d (List.mem_range.1 hd),
      fun d hd => hg.spatial rfl d (List.mem_range.1 hd)⟩, htwo⟩, fun _ => ⟨fun _ => rfl, fun _ => rfl⟩, by simp⟩
  | true =>
    have hk : ∀ d, ∃ k0, d < shape.length → ∃ ax, f.axes[d]? = some ax ∧
        EvenAxis ax k0 (2 * Real.pi / ((shape.getD d 0 : ℕ) * h d)) := by
      intro d
      by_cases hd : d < shape.length
      · obtain ⟨_, ax, k0, h1, h2⟩ := hg.frequency rfl d _ (hg.points hd).1
        exact ⟨k0, fun _ => ⟨ax, h1, h2⟩⟩
      · exact ⟨0, fun h => absurd h hd⟩
    choose k0 hk0 using hk
    refine ⟨k0, fun d => 2 * Real.pi / ((shape.getD d 0 : ℕ) * h d), ⟨⟨hg.range_ne, hnum, hst, ?_,
      fun d hd => hk0 d (List.mem_range.1 hd)⟩, htwo⟩, by simp, fun _ _ _ => rfl⟩
    intro d hd
    have hd := List.mem_range.1 hd
    have hh := hg.pos d hd
    have hn : (0 : ℝ) < (shape.getD d 0 : ℕ) := by exact_mod_cast (by have := (hg.points hd).2; omega : 0 < shape.getD d 0)
    have := Real.pi_pos
    positivity

theorem OnGrid.items (hg : OnGrid f shape state x0 h) (b : Bool) :
    (StateRequest.all b).items f.dims.toNat = (List.range shape.length).map fun (i : ℕ) => ((i : ℤ), b) := by
  unfold StateRequest.items
  rw [dims_sound hg.sound, hg.size]
  rfl

theorem OnGrid.toTransform_eq (hg : OnGrid f shape state x0 h) (b : Bool) :
    toTransform f.ats ((StateRequest.all b).items f.dims.toNat) =
      .ok (if state = b then [] else (List.range shape.length).map Int.ofNat) := by
  rw [hg.items]
  exact toTransform_all _ _ _ _ fun d hd => hg.states d (List.mem_range.1 hd)

/-- A transform of all dimensions to the frequency domain. -/
theorem OnGrid.fft {spl : Splines ℝ} (hspl : ExactOnEven spl) (hg : OnGrid f shape false x0 h) :
    ∃ F, f.fft spl (some ((List.range shape.length).map Int.ofNat)) "spatial" false = .ok F ∧
      OnGrid F shape true x0 h ∧ F.name = f.name ∧ F.unit = f.unit := by
  obtain ⟨e0, s, ht, he, _⟩ := hg.transformable
  obtain ⟨he0, hs⟩ := he rfl
  obtain ⟨F, n, k0, F1, F2, F3, F4, F5, F6, F7, F8, F9, F10, F11, F12, F13⟩ :=
    fft_again hspl hg.sound ht (Or.inl rfl) false (signs := "spatial")
  refine ⟨F, F1, ⟨F2, F3.trans hg.size, hg.some_dim, hg.three, hg.two, hg.pos, ?_, by simp, ?_⟩, F4, F5⟩
  · intro d hd
    exact (F6 d (List.mem_range.2 hd)).2
  · intro _ d m hm
    have hd := (List.getElem?_eq_some_iff.1 hm).1
    have hd' := List.mem_range.2 hd
    obtain ⟨ax, h1, h2⟩ := F10.axis d hd'
    have hnm : n d = m := by
      have := (F8 d hd').1
      rw [hg.size, hm] at this
      exact (Option.some.inj this).symm
    simp only [hnm, hs] at h2
    refine ⟨?_, ax, _, h1, h2⟩
    rw [(F6 d hd').1, he0, hs]
    congr 2
    ring

/-- Changing to the frequency domain keeps the grid. -/
theorem OnGrid.ensure {spl : Splines ℝ} (hspl : ExactOnEven spl) (hg : OnGrid f shape state x0 h) :
    ∃ F, f.ensureTransformState spl (.all true) = .ok F ∧ OnGrid F shape true x0 h ∧ (state = true → F = f) := by
  unfold Field.ensureTransformState
  rw [hg.toTransform_eq]
  cases state with
  | true => exact ⟨f, rfl, hg, fun _ => rfl⟩
  | false =>
    obtain ⟨F, h1, h2, _⟩ := hg.fft hspl
    refine ⟨F, ?_, h2, by simp⟩
    simp only [bind, Except.bind, Bool.false_eq_true, if_false]
    rw [if_neg (by simpa using hg.range_ne)]
    exact h1

theorem zip_map_range {α β γ : Type} (u : ℕ → α) (v : ℕ → β) (w : α × β → γ) (N : ℕ) :
    (((List.range N).map u).zip ((List.range N).map v)).map w = (List.range N).map fun d => w (u d, v d) := by
  rw [List.zip_map', List.map_map]
  rfl

theorem allClose_range (u v : ℕ → ℝ) (N : ℕ)
    (h : ∀ d < N, |u d - v d| ≤ 1 / 100000000 + 1 / 100000 * |v d|) :
    allClose ((List.range N).map u) ((List.range N).map v) = true := by
  unfold allClose
  rw [List.zip_map', List.all_eq_true]
  intro p hp
  obtain ⟨d, hd, rfl⟩ := List.mem_map.1 hp
  unfold isclose
  simpa using h d (List.mem_range.1 hd)

theorem zipIdx_range {α : Type} (u : ℕ → α) (N : ℕ) :
    (((List.range N).map u).zipIdx.map fun (p : α × ℕ) => ((p.2 : ℤ), p.1)) =
      (List.range N).map fun (d : ℕ) => ((d : ℤ), u d) := by
  apply List.ext_getElem
  · simp
  · intro i h1 h2
    simp

/-- The checks of the grid of another field succeed. -/
theorem OnGrid.aligned_ok {spl : Splines ℝ} (hspl : ExactOnEven spl) (lin : Field ℝ ℂ → List ℝ → Res (Field ℝ ℂ))
    {interp : Interpolation} {y0 : ℕ → ℝ} (hg : OnGrid f shape state y0 h)
    (hm : GridsMatch interp shape.length x0 y0 h) :
    ∃ G g, f.ensureTransformState spl (.all true) = .ok G ∧ OnGrid G shape true y0 h ∧
      f.aligned spl lin interp shape
        ((List.range shape.length).map fun d => (x0 d, ((shape.getD d 0 : ℕ) - 1 : ℝ) * h d))
        ((List.range shape.length).map h) = .ok g ∧ g.matrix = G.matrix := by
  obtain ⟨G, h1, h2, _⟩ := hg.ensure hspl
  have hun : f.unmixed spl interp = .ok f := by
    unfold Field.unmixed
    rw [hg.collective]
    rfl
  have hbox : allClose (((List.range shape.length).map fun d => (x0 d, ((shape.getD d 0 : ℕ) - 1 : ℝ) * h d)).map (·.2))
      (((List.range shape.length).map fun d => (y0 d, ((shape.getD d 0 : ℕ) - 1 : ℝ) * h d)).map (·.2)) = true := by
    rw [List.map_map, List.map_map]
    apply allClose_range
    intro d _
    simp only [Function.comp, sub_self, abs_zero]
    positivity
  have hshift : ((((List.range shape.length).map fun d => (x0 d, ((shape.getD d 0 : ℕ) - 1 : ℝ) * h d)).zip
      ((List.range shape.length).map fun d => (y0 d, ((shape.getD d 0 : ℕ) - 1 : ℝ) * h d))).map
        fun p => p.1.1 - p.2.1) = (List.range shape.length).map fun d => x0 d - y0 d :=
    zip_map_range _ _ _ _
  unfold Field.aligned
  rw [hun]
  simp only [bind, Except.bind, hg.data]
  rw [if_neg (not_not.2 hg.size), hbox, hshift]
  cases interp with
  | linear => exact absurd hm (by simp [GridsMatch])
  | none =>
    have horig : allClose (((List.range shape.length).map fun d => (x0 d, ((shape.getD d 0 : ℕ) - 1 : ℝ) * h d)).map (·.1))
        (((List.range shape.length).map fun d => (y0 d, ((shape.getD d 0 : ℕ) - 1 : ℝ) * h d)).map (·.1)) = true := by
      rw [List.map_map, List.map_map]
      exact allClose_range _ _ _ hm
    refine ⟨G, G, h1, h2, ?_, rfl⟩
    simp only [horig, h1]
    rfl
  | fourier =>
    have hall : ((((List.range shape.length).map fun d => x0 d - y0 d).zip ((List.range shape.length).map h)).all
        fun p => decide (|p.1| < 2 * p.2)) = true := by
      rw [List.zip_map', List.all_eq_true]
      intro p hp
      obtain ⟨d, hd, rfl⟩ := List.mem_map.1 hp
      simpa using hm d (List.mem_range.1 hd)
    obtain ⟨tao, t1, _⟩ := addOrigins_eq y0 (fun d => x0 d - y0 d) (List.range shape.length) List.nodup_range G.tao (by
      intro d hd
      exact (h2.frequency rfl d _ (h2.points (List.mem_range.1 hd)).1).1)
    refine ⟨G, { G with tao := tao }, h1, h2, ?_, rfl⟩
    simp only [hall, h1, zipIdx_range, t1]
    rfl

/-! ### The wave vector -/

theorem meshAt_eq {F : Field ℝ ℂ} (hg : OnGrid F shape true x0 h) {idx : List ℕ} (hidx : InBounds shape idx) :
    meshAt F.axes idx = (List.range shape.length).map fun d => (gridAlong F d).getD (idx.getD d 0) 0 := by
  have hlen : F.axes.length = shape.length := by rw [ok_axes_length hg.sound.ok, hg.size]
  have hidl : idx.length = shape.length := hidx.1
  unfold meshAt
  apply List.ext_getElem
  · simp [hlen, hidl]
  · intro i h1 h2
    have hi : i < shape.length := by simpa using h2
    have hia : i < F.axes.length := by omega
    simp only [List.getElem_map, List.getElem_zip, List.getElem_range]
    congr 1
    · unfold gridAlong
      rw [List.getElem?_eq_getElem hia]
      rfl
    · rw [List.getD_eq_getElem]

theorem waveVector_zero {F : Field ℝ ℂ} (hg : OnGrid F shape true x0 h) (idx : List ℕ) (d : Fin 3)
    (hd : shape.length ≤ d) : waveVector F idx d = 0 := by
  have hlen : F.axes.length = shape.length := by rw [ok_axes_length hg.sound.ok, hg.size]
  unfold waveVector gridAlong
  rw [List.getElem?_eq_none (by omega)]
  simp

theorem meshAt_take {F : Field ℝ ℂ} (hg : OnGrid F shape true x0 h) {idx : List ℕ} (hidx : InBounds shape idx) :
    meshAt F.axes idx = (List.ofFn (waveVector F idx)).take shape.length := by
  rw [meshAt_eq hg hidx]
  have h3 := hg.three
  apply List.ext_getElem
  · simp; omega
  · intro i h1 h2
    rw [List.getElem_take, List.getElem_ofFn]
    simp [waveVector]

theorem square_mesh {F : Field ℝ ℂ} (hg : OnGrid F shape true x0 h) {idx : List ℕ} (hidx : InBounds shape idx) :
    square (meshAt F.axes idx) = waveVector F idx 0 ^ 2 + waveVector F idx 1 ^ 2 + waveVector F idx 2 ^ 2 := by
  have h3 := hg.three
  have h0 := hg.some_dim
  have hz := waveVector_zero hg idx
  rw [meshAt_eq hg hidx]
  have hcases : shape.length = 1 ∨ shape.length = 2 ∨ shape.length = 3 := by
    have : shape.length ≠ 0 := by simpa using h0
    omega
  rcases hcases with hN | hN | hN
  · rw [hz 1 (by rw [hN]; decide), hz 2 (by rw [hN]; decide), hN]
    simp [square, waveVector, List.range_succ]
  · rw [hz 2 (by rw [hN]; decide), hN]
    simp [square, waveVector, List.range_succ]
  · rw [hN]
    simp [square, waveVector, List.range_succ]
    ring

theorem prefactor_eq {F : Field ℝ ℂ} (hg : OnGrid F shape true x0 h) {idx : List ℕ} (hidx : InBounds shape idx)
    (electric : Bool) (omega : List ℝ → Option ℝ) :
    prefactor electric omega (meshAt F.axes idx) =
      -crossFactor electric (omega ((List.ofFn (waveVector F idx)).take shape.length)) (waveVector F idx) := by
  unfold prefactor crossFactor
  rw [square_mesh hg hidx, ← meshAt_take hg hidx]
  have hk : waveVector F idx 0 ^ 2 + waveVector F idx 1 ^ 2 + waveVector F idx 2 ^ 2 = 0 ↔ waveVector F idx = 0 := by
    constructor
    · intro hs
      funext d
      have h0 := sq_nonneg (waveVector F idx 0)
      have h1 := sq_nonneg (waveVector F idx 1)
      have h2 := sq_nonneg (waveVector F idx 2)
      have : waveVector F idx d ^ 2 = 0 := by fin_cases d <;> simp <;> nlinarith
      simpa using this
    · intro h
      simp [h]
  cases omega (meshAt F.axes idx) with
  | none => simp
  | some w =>
    cases electric with
    | true =>
      simp only [if_true]
      by_cases h0 : waveVector F idx = 0
      · rw [if_pos (hk.2 h0), if_pos h0, neg_zero]
      · rw [if_neg (fun h => h0 (hk.1 h)), if_neg h0, neg_neg]
    | false =>
      simp only [Bool.false_eq_true, if_false]
      by_cases h0 : w = 0
      · rw [if_pos h0, if_pos h0, neg_zero]
      · rw [if_neg h0, if_neg h0]
        ring

/-! ### The terms of the cross product -/

theorem fieldKey_eq (electric : Bool) (j : Fin 3) : fieldKey electric j = some (componentName electric j) := by
  fin_cases j <;> cases electric <;> rfl

theorem parse_component (electric : Bool) (p : Fin 3) :
    parseComponent (componentName electric p) = .ok (if electric then 'E' else 'B', p.val) := by
  fin_cases p <;> cases electric <;> decide

variable {fields : List (String × Field ℝ ℂ)} {electric : Bool} {p : Fin 3} {interp : Interpolation}
  {main : Field ℝ ℂ} {other : Fin 3 → Field ℝ ℂ} {states : Fin 3 → Bool} {y0 : Fin 3 → ℕ → ℝ}

/-- One term: component `m` of the wave vector times component `j` of the other field, where `p`, `j`, `m` are the three
directions. -/
theorem term_ok {spl : Splines ℝ} (lin : Field ℝ ℂ → List ℝ → Res (Field ℝ ℂ)) (omega : List ℝ → Option ℝ)
    (hpresent : ∀ j, Needed shape.length p j → fields.lookup (componentName (!electric) j) = some (other j))
    {G : Fin 3 → Field ℝ ℂ} {gs : Fin 3 → Field ℝ ℂ}
    (hG : ∀ j, Needed shape.length p j → (other j).aligned spl lin interp shape
        ((List.range shape.length).map fun d => (x0 d, ((shape.getD d 0 : ℕ) - 1 : ℝ) * h d))
        ((List.range shape.length).map h) = .ok (gs j) ∧ (gs j).matrix = (G j).matrix)
    {F R : Field ℝ ℂ} (hF : OnGrid F shape true x0 h) (hRa : R.axes = F.axes) (hRs : R.shape = shape) (i : ℕ)
    (j m : Fin 3) (hj : (p.val + i) % 3 = j.val) (hm : (p.val + 3 - i) % 3 = m.val) (hjp : j ≠ p) (hmp : m ≠ p)
    (hmj : m ≠ j) :
    ∃ R', kspaceTerm spl lin interp omega fields electric p
        ((List.range shape.length).map fun d => (x0 d, ((shape.getD d 0 : ℕ) - 1 : ℝ) * h d))
        ((List.range shape.length).map h) R i = .ok R' ∧ R'.axes = R.axes ∧ R'.ats = R.ats ∧ R'.tao = R.tao ∧
      R'.name = R.name ∧ R'.unit = R.unit ∧ R'.shape = R.shape ∧
      ∀ idx, InBounds shape idx → ∀ B : Fin 3 → ℂ, (Needed shape.length p j → B j = (G j).matrix.at' idx) →
        R'.matrix.at' idx = R.matrix.at' idx +
          ((-1) ^ (i - 1) * prefactor electric omega (meshAt F.axes idx) * waveVector F idx m : ℝ) * B j := by
  have hlen : R.axes.length = shape.length := by rw [hRa, ok_axes_length hF.sound.ok, hF.size]
  unfold kspaceTerm
  rw [hm, hj, hlen]
  by_cases hlt : m.val < shape.length
  · have hneed : Needed shape.length p j := ⟨hjp, m, hmp, hmj, hlt⟩
    obtain ⟨a1, a2⟩ := hG j hneed
    rw [if_pos hlt, fieldKey_eq, Option.bind_some, hpresent j hneed]
    simp only [hRs, a1, bind, Except.bind]
    refine ⟨_, rfl, rfl, rfl, rfl, rfl, rfl, rfl, ?_⟩
    intro idx hidx B hB
    simp only [hRa, a2, ← hB hneed]
    congr 4
    rw [meshAt_eq hF hidx, List.getD_eq_getElem?_getD, List.getElem?_map, List.getElem?_range hlt]
    rfl
  · rw [if_neg hlt]
    refine ⟨R, rfl, rfl, rfl, rfl, rfl, rfl, rfl, ?_⟩
    intro idx _ B _
    rw [waveVector_zero hF idx m (by omega)]
    simp

/-- The whole function, if the other fields have been aligned. -/
theorem kspace_core {spl : Splines ℝ} (hspl : ExactOnEven spl) (lin : Field ℝ ℂ → List ℝ → Res (Field ℝ ℂ))
    (omega : List ℝ → Option ℝ) (hpres : fields.lookup (componentName electric p) = some main)
    (hmain : OnGrid main shape state x0 h)
    (hothers : ∀ j, Needed shape.length p j → fields.lookup (componentName (!electric) j) = some (other j))
    {G : Fin 3 → Field ℝ ℂ} {gs : Fin 3 → Field ℝ ℂ}
    (hG : ∀ j, Needed shape.length p j → (other j).aligned spl lin interp shape
        ((List.range shape.length).map fun d => (x0 d, ((shape.getD d 0 : ℕ) - 1 : ℝ) * h d))
        ((List.range shape.length).map h) = .ok (gs j) ∧ (gs j).matrix = (G j).matrix) :
    ∃ (F : Field ℝ ℂ) (r : Field ℝ ℂ), main.ensureTransformState spl (.all true) = .ok F ∧ OnGrid F shape true x0 h ∧
      (state = true → F = main) ∧
      kspace spl lin (componentName electric p) fields interp omega = .ok (r, if state then
        fields.map fun q => if q.1 = componentName electric p then (q.1, r) else q else fields) ∧
      r.axes = F.axes ∧ r.ats = F.ats ∧ r.tao = F.tao ∧ r.name = F.name ∧ r.unit = F.unit ∧ r.shape = shape ∧
      ∀ idx, InBounds shape idx → ∀ B : Fin 3 → ℂ, (∀ j, Needed shape.length p j → B j = (G j).matrix.at' idx) →
        r.matrix.at' idx = F.matrix.at' idx +
          crossFactor electric (omega ((List.ofFn (waveVector F idx)).take shape.length)) (waveVector F idx) *
            cross (waveVector F idx) B p := by
  obtain ⟨F, hF1, hF2, hF3⟩ := hmain.ensure hspl
  have hgrids := hF2.grids
  have hdata : ((List.range shape.length).map fun d => ap (x0 d) (h d) (shape.getD d 0)).mapM gridData =
      .ok ((List.range shape.length).map fun d => (x0 d, ((shape.getD d 0 : ℕ) - 1 : ℝ) * h d)) := by
    apply mapM_of_forall2
    rw [List.forall₂_map_left_iff, List.forall₂_map_right_iff, List.forall₂_same]
    intro d hd
    exact gridData_ap _ _ (by have := (hF2.points (List.mem_range.1 hd)).2; omega)
  have hstep : ((List.range shape.length).map fun d => ap (x0 d) (h d) (shape.getD d 0)).mapM gridStep =
      .ok ((List.range shape.length).map h) := by
    apply mapM_of_forall2
    rw [List.forall₂_map_left_iff, List.forall₂_map_right_iff, List.forall₂_same]
    intro d hd
    exact gridStep_ap _ _ (hF2.points (List.mem_range.1 hd)).2
  obtain ⟨R1, t1, t2, t3, t4, t5, t6, t7, t8⟩ := term_ok lin omega hothers hG hF2 rfl hF2.size 1 (p + 1) (p + 2)
    (by fin_cases p <;> rfl) (by fin_cases p <;> rfl) (by fin_cases p <;> decide) (by fin_cases p <;> decide)
    (by fin_cases p <;> decide)
  obtain ⟨R2, u1, u2, u3, u4, u5, u6, u7, u8⟩ := term_ok lin omega hothers hG hF2 t2 (t7.trans hF2.size) 2 (p + 2) (p + 1)
    (by fin_cases p <;> rfl) (by fin_cases p <;> rfl) (by fin_cases p <;> decide) (by fin_cases p <;> decide)
    (by fin_cases p <;> decide)
  refine ⟨F, R2, hF1, hF2, hF3, ?_, u2.trans t2, u3.trans t3, u4.trans t4, u5.trans t5,
    u6.trans t6, (u7.trans t7).trans hF2.size, ?_⟩
  · have hel : decide ((if electric = true then 'E' else 'B') = 'E') = electric := by cases electric <;> decide
    have hEB : ((if electric = true then 'E' else 'B') = 'E' ∨ (if electric = true then 'E' else 'B') = 'B') := by
      cases electric <;> decide
    unfold kspace
    rw [parse_component]
    simp only [bind, Except.bind, hel]
    rw [if_neg (not_not.2 hEB)]
    simp only [fieldKey_eq, hpres, hmain.toTransform_eq, hF1, hgrids, hdata, hstep, t1, u1, pure, Except.pure]
    have hne := hmain.range_ne
    cases state <;> simp [hne]
  · intro idx hidx B hB
    rw [u8 idx hidx B (hB _), t8 idx hidx B (hB _), prefactor_eq hF2 hidx]
    unfold cross
    rw [cross_apply]
    fin_cases p <;> simp <;> ring

/-- The whole function. -/
theorem kspace_ok {spl : Splines ℝ} (hspl : ExactOnEven spl) (lin : Field ℝ ℂ → List ℝ → Res (Field ℝ ℂ))
    (omega : List ℝ → Option ℝ)
    (hin : KspaceInput fields electric p interp shape main other state states x0 h y0) :
    ∃ (F : Field ℝ ℂ) (G : Fin 3 → Field ℝ ℂ) (r : Field ℝ ℂ), main.ensureTransformState spl (.all true) = .ok F ∧ OnGrid F shape true x0 h ∧
      (state = true → F = main) ∧
      (∀ j, Needed shape.length p j → (other j).ensureTransformState spl (.all true) = .ok (G j)) ∧
      kspace spl lin (componentName electric p) fields interp omega = .ok (r, if state then
        fields.map fun q => if q.1 = componentName electric p then (q.1, r) else q else fields) ∧
      r.axes = F.axes ∧ r.ats = F.ats ∧ r.tao = F.tao ∧ r.name = F.name ∧ r.unit = F.unit ∧ r.shape = shape ∧
      ∀ idx, InBounds shape idx → ∀ B : Fin 3 → ℂ, (∀ j, Needed shape.length p j → B j = (G j).matrix.at' idx) →
        r.matrix.at' idx = F.matrix.at' idx +
          crossFactor electric (omega ((List.ofFn (waveVector F idx)).take shape.length)) (waveVector F idx) *
            cross (waveVector F idx) B p := by
  have hall : ∀ j, ∃ G g, Needed shape.length p j → (other j).ensureTransformState spl (.all true) = .ok G ∧
      (other j).aligned spl lin interp shape
        ((List.range shape.length).map fun d => (x0 d, ((shape.getD d 0 : ℕ) - 1 : ℝ) * h d))
        ((List.range shape.length).map h) = .ok g ∧ g.matrix = G.matrix := by
    intro j
    by_cases hn : Needed shape.length p j
    · obtain ⟨G, g, h1, _, h3, h4⟩ := (hin.otherGrid j hn).aligned_ok hspl lin (hin.aligned j hn)
      exact ⟨G, g, fun _ => ⟨h1, h3, h4⟩⟩
    · exact ⟨main, main, fun h => absurd h hn⟩
  choose G gs hGs using hall
  have hG := fun j hn => (hGs j hn).2
  obtain ⟨F, r, k1, k2, k3, k4⟩ := kspace_core hspl lin omega hin.present hin.mainGrid hin.othersPresent hG
  exact ⟨F, G, r, k1, k2, k3, fun j hn => (hGs j hn).1, k4⟩

end

end Postpic.Spec
