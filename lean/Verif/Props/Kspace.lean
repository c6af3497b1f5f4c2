import Mathlib.Tactic.LinearCombination
import Verif.Lemmas.Kspace
import Verif.Props.Fft

/-!
# Reconstruction of the k-space
-/

set_option autoImplicit false

namespace Postpic.Props

open Postpic Postpic.Axes Postpic.Fields Postpic.Spec

noncomputable section

/-! ## C40: `kspace` -/

/-- C40: with `k` the wave vector of a position of the transformed field, `kspace` returns `E - ω/k² (k × B)` for a component of
`E` and `B + 1/ω (k × E)` for a component of `B` (at `k = 0`, or where `ω` is 0 or not a number: the field itself), with the
axes of the transformed field. The fields can be given in the spatial or in the frequency domain and with grids shifted against
each other; only the components of the other field which are multiplied with a component of `k` have to be given. If the
component is given in the spatial domain, the dictionary of the caller stays as it was. Partial: evenly spaced grids; see
`kspace_extent_partial` for an `extent` and `kspace_linear_partial` for the linear interpolation; the factor 0.5 of the documentation is missing (see `kspace_factor_violated`), and a
component given in the frequency domain is overwritten (see `kspace_argument_violated`). -/
theorem kspace_value_partial (spl : Splines ℝ) (hspl : ExactOnEven spl) (lin : Field ℝ ℂ → List ℝ → Res (Field ℝ ℂ))
    (omega : List ℝ → Option ℝ) (fields : List (String × Field ℝ ℂ)) (electric : Bool) (p : Fin 3)
    (interp : Interpolation) (shape : List ℕ) (main : Field ℝ ℂ) (other : Fin 3 → Field ℝ ℂ) (state : Bool)
    (states : Fin 3 → Bool) (x0 h : ℕ → ℝ) (y0 : Fin 3 → ℕ → ℝ)
    (hin : KspaceInput fields electric p interp shape main other state states x0 h y0) :
    ∃ (F : Field ℝ ℂ) (G : Fin 3 → Field ℝ ℂ) (r : Field ℝ ℂ) (after : List (String × Field ℝ ℂ)),
      main.ensureTransformState spl (.all true) = .ok F ∧
      (∀ j, Needed shape.length p j → (other j).ensureTransformState spl (.all true) = .ok (G j)) ∧
      kspace spl lin (componentName electric p) fields interp omega = .ok (r, after) ∧
      r.axes = F.axes ∧ r.ats = F.ats ∧ r.tao = F.tao ∧ r.name = F.name ∧ r.unit = F.unit ∧ r.shape = shape ∧
      (∀ idx, InBounds shape idx → ∀ B : Fin 3 → ℂ, (∀ j, Needed shape.length p j → B j = (G j).matrix.at' idx) →
        r.matrix.at' idx = F.matrix.at' idx +
          crossFactor electric (omega ((List.ofFn (waveVector F idx)).take shape.length)) (waveVector F idx) *
            cross (waveVector F idx) B p) ∧
      (state = false → after = fields) := by
  obtain ⟨F, G, r, h1, h2, _, h4, h5, h6, h7, h8, h9, h10, h11, h12⟩ := kspace_ok hspl lin omega hin
  refine ⟨F, G, r, _, h1, h4, h5, h6, h7, h8, h9, h10, h11, h12, ?_⟩
  rintro rfl
  rfl

/-- The components of a plane wave after the reconstruction. -/
theorem plane_wave_sum {dir w : ℝ} {k : Fin 3 → ℝ} {E B : Fin 3 → ℂ} (hw : w ≠ 0) (hk : k ≠ 0)
    (h : PlaneWave dir k w E B) (hd : dir = 1 ∨ dir = -1) (p : Fin 3) :
    E p + crossFactor true (some w) k * cross k B p = (1 + dir : ℝ) * E p ∧
      B p + crossFactor false (some w) k * cross k E p = (1 + dir : ℝ) * B p := by
  have hwc : (w : ℂ) ≠ 0 := by exact_mod_cast hw
  have hk2 : k 0 ^ 2 + k 1 ^ 2 + k 2 ^ 2 ≠ 0 := by
    intro hs
    apply hk
    funext d
    have h0 := sq_nonneg (k 0)
    have h1 := sq_nonneg (k 1)
    have h2 := sq_nonneg (k 2)
    have : k d ^ 2 = 0 := by fin_cases d <;> simp <;> nlinarith
    simpa using this
  have hk2c : (k 0 : ℂ) ^ 2 + k 1 ^ 2 + k 2 ^ 2 ≠ 0 := by exact_mod_cast hk2
  have hdd : (dir : ℂ) * dir = 1 := by
    rcases hd with rfl | rfl <;> norm_num
  have hf0 := congrFun h.faraday 0
  have hf1 := congrFun h.faraday 1
  have hf2 := congrFun h.faraday 2
  simp [cross, cross_apply] at hf0 hf1 hf2
  have htr := h.transverse
  constructor
  · have hfac : crossFactor true (some w) k = -(w / (k 0 ^ 2 + k 1 ^ 2 + k 2 ^ 2)) := by
      simp only [crossFactor, if_true, if_neg hk]
    rw [hfac]
    unfold cross
    rw [cross_apply]
    fin_cases p
    · simp
      field_simp
      linear_combination (dir : ℂ) * (k 1 * hf2 - k 2 * hf1) - (dir : ℂ) * k 0 * htr +
        (w : ℂ) * (k 1 * B 2 - k 2 * B 1) * hdd
    · simp
      field_simp
      linear_combination (dir : ℂ) * (k 2 * hf0 - k 0 * hf2) - (dir : ℂ) * k 1 * htr +
        (w : ℂ) * (k 2 * B 0 - k 0 * B 2) * hdd
    · simp
      field_simp
      linear_combination (dir : ℂ) * (k 0 * hf1 - k 1 * hf0) - (dir : ℂ) * k 2 * htr +
        (w : ℂ) * (k 0 * B 1 - k 1 * B 0) * hdd
  · have hfac : crossFactor false (some w) k = 1 / w := by
      simp [crossFactor, hw]
    rw [hfac, h.faraday]
    push_cast
    field_simp

/-- C40: at a position with wave vector `k ≠ 0` and frequency `w ≠ 0` where the transformed fields are the amplitudes `E`, `B` of
a plane wave (Faraday's law, transverse), the result for a wave which runs along `k` is twice the component, and for a wave which
runs against `k` it is 0. (Twice, because the real field contains the wave a second time at `-k`; the documentation has the
factor 0.5, see `kspace_factor_violated`.) Partial: as for `kspace_value_partial`. -/
theorem kspace_plane_wave_partial (spl : Splines ℝ) (hspl : ExactOnEven spl)
    (lin : Field ℝ ℂ → List ℝ → Res (Field ℝ ℂ))
    (omega : List ℝ → Option ℝ) (fields : List (String × Field ℝ ℂ)) (electric : Bool) (p : Fin 3)
    (interp : Interpolation) (shape : List ℕ) (main : Field ℝ ℂ) (other : Fin 3 → Field ℝ ℂ) (state : Bool)
    (states : Fin 3 → Bool) (x0 h : ℕ → ℝ) (y0 : Fin 3 → ℕ → ℝ)
    (hin : KspaceInput fields electric p interp shape main other state states x0 h y0) :
    ∃ (F : Field ℝ ℂ) (G : Fin 3 → Field ℝ ℂ) (r : Field ℝ ℂ) (after : List (String × Field ℝ ℂ)),
      main.ensureTransformState spl (.all true) = .ok F ∧
      (∀ j, Needed shape.length p j → (other j).ensureTransformState spl (.all true) = .ok (G j)) ∧
      kspace spl lin (componentName electric p) fields interp omega = .ok (r, after) ∧
      ∀ idx, InBounds shape idx → ∀ (E B : Fin 3 → ℂ) (w : ℝ),
        omega ((List.ofFn (waveVector F idx)).take shape.length) = some w → w ≠ 0 → waveVector F idx ≠ 0 →
        F.matrix.at' idx = (if electric then E p else B p) →
        (∀ j, Needed shape.length p j → (G j).matrix.at' idx = if electric then B j else E j) →
        (PlaneWave 1 (waveVector F idx) w E B → r.matrix.at' idx = 2 * F.matrix.at' idx) ∧
        (PlaneWave (-1) (waveVector F idx) w E B → r.matrix.at' idx = 0) := by
  obtain ⟨F, G, r, after, h1, h2, h3, _, _, _, _, _, _, h4, _⟩ := kspace_value_partial spl hspl lin omega fields electric p
    interp shape main other state states x0 h y0 hin
  refine ⟨F, G, r, after, h1, h2, h3, ?_⟩
  intro idx hidx E B w hw hw0 hk hF hG
  have hr := h4 idx hidx (if electric then B else E) (by
    intro j hj
    rw [hG j hj]
    cases electric <;> rfl)
  rw [hw, hF] at hr
  cases electric with
  | true =>
    simp only [if_true] at hr hF ⊢
    constructor
    · intro hp
      rw [hr, (plane_wave_sum hw0 hk hp (Or.inl rfl) p).1, hF]
      norm_num
    · intro hp
      rw [hr, (plane_wave_sum hw0 hk hp (Or.inr rfl) p).1]
      norm_num
  | false =>
    simp only [Bool.false_eq_true, if_false] at hr hF ⊢
    constructor
    · intro hp
      rw [hr, (plane_wave_sum hw0 hk hp (Or.inl rfl) p).2, hF]
      norm_num
    · intro hp
      rw [hr, (plane_wave_sum hw0 hk hp (Or.inr rfl) p).2]
      norm_num

/-! ### Examples and violations -/

/-- A field in the frequency domain with the two wave vectors 1 and 2 and the same value at both. -/
def fieldFreq (v : ℂ) : Field ℝ ℂ :=
  ⟨"E", "V/m", ⟨[2], fun _ => v⟩, [evenAxisOf "kx" "1/m" (1 / 2) 1 2], [some true], [some 0]⟩

theorem fieldFreq_grid (v : ℂ) : OnGrid (fieldFreq v) [2] true (fun _ => 0) (fun _ => Real.pi) := by
  refine ⟨⟨⟨?_, rfl, rfl⟩, ?_, by simp [fieldFreq, Field.shape]⟩, rfl, by simp, by simp, by simp, fun _ _ => Real.pi_pos, ?_,
    by simp, ?_⟩
  · simp [fieldFreq, Axis.len, evenAxisOf, ap_length, Field.shape]
  · intro ax hax
    simp only [fieldFreq, List.mem_cons, List.not_mem_nil, or_false] at hax
    subst hax
    exact evenAxisOf_valid _ _ _ _ (by norm_num) _
  · intro d hd
    have : d = 0 := by simpa using hd
    subst this
    rfl
  · intro _ d n hn
    have hd : d = 0 := by
      have := (List.getElem?_eq_some_iff.1 hn).1
      simpa using this
    subst hd
    have hn : n = 2 := by simpa using hn.symm
    subst hn
    refine ⟨rfl, _, 1 / 2, rfl, ?_⟩
    have := Real.pi_pos
    have h1 : 2 * Real.pi / ((2 : ℕ) * Real.pi) = 1 := by push_cast; field_simp
    rw [h1]
    exact evenAxisOf_even _ _ _ _ _

theorem needed_one (j : Fin 3) : Needed 1 1 j ↔ j = 2 := by
  unfold Needed
  revert j
  decide

/-- `Ey` of a one-dimensional simulation: only `Bz` is needed. -/
theorem freqInput (a b : ℂ) : KspaceInput [("Ey", fieldFreq a), ("Bz", fieldFreq b)] true 1 .none [2] (fieldFreq a)
    (fun _ => fieldFreq b) true (fun _ => true) (fun _ => 0) (fun _ => Real.pi) (fun _ _ => 0) := by
  refine ⟨rfl, fieldFreq_grid a, ?_, fun _ _ => fieldFreq_grid b, ?_⟩
  · intro j hj
    have : j = 2 := (needed_one j).1 hj
    subst this
    rfl
  · intro j _ d _
    norm_num

theorem freq_wave (v : ℂ) : waveVector (fieldFreq v) [0] = ![1, 0, 0] := by
  funext d
  fin_cases d
  · simp [waveVector, gridAlong, fieldFreq, evenAxisOf, ap, List.range_succ]
    norm_num
  · simp [waveVector, gridAlong, fieldFreq]
  · simp [waveVector, gridAlong, fieldFreq]

theorem freq_index : InBounds [2] [0] := by
  refine ⟨rfl, fun d i n h1 h2 => ?_⟩
  rcases d with _ | d
  · simp at h1 h2
    omega
  · simp at h1

/-- For `Ey = a`, `Bz = b`, `k = (1, 0, 0)` and `ω = 1` the result is `a + b`. -/
theorem freq_result (a b : ℂ) (lin : Field ℝ ℂ → List ℝ → Res (Field ℝ ℂ)) :
    ∃ r, kspace lineSplines lin "Ey" [("Ey", fieldFreq a), ("Bz", fieldFreq b)] .none (fun _ => some 1) =
      .ok (r, [("Ey", r), ("Bz", fieldFreq b)]) ∧ r.matrix.at' [0] = a + b := by
  obtain ⟨F, G, r, h1, h2, h3, h4, h5, h6, h7, h8, h9, h10, h11, h12⟩ :=
    kspace_ok lineSplines_exact lin (fun _ => some 1) (freqInput a b)
  obtain rfl := h3 rfl
  refine ⟨r, ?_, ?_⟩
  · have : componentName true 1 = "Ey" := rfl
    rw [this] at h5
    rw [h5]
    rfl
  · have hG : G 2 = fieldFreq b := by
      have := h4 2 ((needed_one 2).2 rfl)
      obtain ⟨F', e1, e2, e3⟩ := (fieldFreq_grid b).ensure lineSplines_exact
      rw [this] at e1
      rw [Except.ok.inj e1, e3 rfl]
    rw [h12 [0] freq_index ![0, 0, b] (by
      intro j hj
      have : j = 2 := (needed_one j).1 hj
      subst this
      rw [hG]
      rfl), freq_wave]
    have hne : (![1, 0, 0] : Fin 3 → ℝ) ≠ 0 := fun h => by simpa using congrFun h 0
    simp [crossFactor, cross, cross_apply, hne, fieldFreq]

example : ∃ F : Field ℝ ℂ, OnGrid F [2] true (fun _ => 0) (fun _ => Real.pi) ∧ waveVector F [0] = ![1, 0, 0] :=
  ⟨fieldFreq 1, fieldFreq_grid 1, freq_wave 1⟩

example : PlaneWave 1 ![1, 0, 0] 1 ![0, 1, 0] ![0, 0, 1] ∧ PlaneWave (-1) ![1, 0, 0] 1 ![0, 1, 0] ![0, 0, -1] := by
  refine ⟨⟨?_, by simp⟩, ⟨?_, by simp⟩⟩ <;> funext d <;> fin_cases d <;> simp [cross, cross_apply]

example := kspace_plane_wave_partial lineSplines lineSplines_exact (fun f _ => .ok f) omegaFree _ _ _ _ _ _ _ _ _ _ _ _
  (freqInput 1 1)

/-- A field with 3 times 2 points in the spatial domain, whose first cell starts at `(a, b)`. -/
def field32At (a b : ℝ) : Field ℝ ℂ :=
  ⟨"f", "V/m", ⟨[3, 2], fun idx => (idx.getD 0 0 : ℂ) + (idx.getD 1 0 : ℂ)⟩,
    [evenAxisOf "x" "m" a 2 3, evenAxisOf "y" "m" b (1 / 2) 2], [some false, some false], [none, none]⟩

theorem field32At_grid (a b : ℝ) : OnGrid (field32At a b) [3, 2] false (fun d => if d = 0 then a + 1 else b + 1 / 4)
    (fun d => if d = 0 then 2 else 1 / 2) := by
  refine ⟨⟨⟨?_, rfl, rfl⟩, ?_, by simp [field32At, Field.shape]⟩, rfl, by simp, by simp, by simp, ?_, ?_, ?_, by simp⟩
  · simp [field32At, Axis.len, evenAxisOf, ap_length, Field.shape]
  · intro ax hax
    simp only [field32At, List.mem_cons, List.not_mem_nil, or_false] at hax
    rcases hax with rfl | rfl
    · exact evenAxisOf_valid _ _ _ _ (by norm_num) _
    · exact evenAxisOf_valid _ _ _ _ (by norm_num) _
  · intro d _
    split_ifs <;> norm_num
  · intro d hd
    have : d = 0 ∨ d = 1 := by simp at hd; omega
    rcases this with rfl | rfl <;> rfl
  · intro _ d hd
    have : d = 0 ∨ d = 1 := by simp at hd; omega
    rcases this with rfl | rfl
    · refine ⟨_, rfl, ?_⟩
      have := evenAxisOf_even "x" "m" a 2 3
      norm_num
      exact this
    · refine ⟨_, rfl, ?_⟩
      have := evenAxisOf_even "y" "m" b (1 / 2) 2
      norm_num at this ⊢
      exact this

/-- `Ex` of a two-dimensional simulation from `Ex` and `Bz` on grids which are shifted by half a cell. -/
theorem staggeredInput : KspaceInput [("Bz", field32At 1 (1 / 4)), ("Ex", field32At 0 0)] true 0 .fourier [3, 2] (field32At 0 0)
    (fun _ => field32At 1 (1 / 4)) false (fun _ => false) (fun d => if d = 0 then 0 + 1 else 0 + 1 / 4)
    (fun d => if d = 0 then 2 else 1 / 2) (fun _ d => if d = 0 then 1 + 1 else 1 / 4 + 1 / 4) := by
  refine ⟨rfl, field32At_grid 0 0, ?_, fun _ _ => field32At_grid 1 (1 / 4), ?_⟩
  · intro j hj
    have : j = 2 := by
      revert hj
      unfold Needed
      revert j
      decide
    subst this
    rfl
  · intro j _ d _
    dsimp only
    split_ifs <;> norm_num [abs_lt]

example := kspace_value_partial lineSplines lineSplines_exact (fun f _ => .ok f) omegaFree _ _ _ _ _ _ _ _ _ _ _ _ staggeredInput

/-- C40 violated: the documentation gives the result `0.5*(E - ω/k² (k × B))`; here `Ey = Bz = 1`, `k = (1, 0, 0)`, `ω = 1`, so
that `-ω/k² (k × B)` is 1 along `y`, and the result is 2 instead of 1. -/
theorem kspace_factor_violated : ∃ (fields : List (String × Field ℝ ℂ)) (r : Field ℝ ℂ) (after : List (String × Field ℝ ℂ)),
    kspace lineSplines (fun f _ => .ok f) "Ey" fields .none (fun _ => some 1) = .ok (r, after) ∧
      fields.lookup "Ey" = some (fieldFreq 1) ∧ fields.lookup "Bz" = some (fieldFreq 1) ∧
      waveVector (fieldFreq 1) [0] = ![1, 0, 0] ∧ cross ![1, 0, 0] ![0, 0, 1] 1 = -1 ∧
      r.matrix.at' [0] = 2 ∧ r.matrix.at' [0] ≠ 1 / 2 * (1 - 1 * cross ![1, 0, 0] ![0, 0, 1] 1) := by
  obtain ⟨r, h1, h2⟩ := freq_result 1 1 fun f _ => .ok f
  have hc : cross ![1, 0, 0] ![0, 0, 1] 1 = -1 := by simp [cross, cross_apply]
  refine ⟨_, r, _, h1, rfl, rfl, freq_wave 1, hc, by rw [h2]; norm_num, ?_⟩
  rw [h2, hc]
  norm_num

/-- C40 violated: a component which is in the frequency domain already is overwritten with the result. -/
theorem kspace_argument_violated : ∃ (f : Field ℝ ℂ) (fields : List (String × Field ℝ ℂ)) (r : Field ℝ ℂ)
    (after : List (String × Field ℝ ℂ)),
    kspace lineSplines (fun f _ => .ok f) "Ey" fields .none (fun _ => some 1) = .ok (r, after) ∧
      fields.lookup "Ey" = some f ∧ f.matrix.at' [0] = 1 ∧
      ∃ g, after.lookup "Ey" = some g ∧ g.matrix.at' [0] = 2 := by
  obtain ⟨r, h1, h2⟩ := freq_result 1 1 fun f _ => .ok f
  exact ⟨fieldFreq 1, _, r, _, h1, rfl, rfl, r, rfl, by rw [h2]; norm_num⟩

/-- C40: if the component itself is missing, `kspace` raises a `ValueError`. -/
theorem kspace_missing_component (spl : Splines ℝ) (lin : Field ℝ ℂ → List ℝ → Res (Field ℝ ℂ))
    (omega : List ℝ → Option ℝ) (fields : List (String × Field ℝ ℂ)) (electric : Bool) (p : Fin 3)
    (interp : Interpolation) (h : fields.lookup (componentName electric p) = none) :
    kspace spl lin (componentName electric p) fields interp omega = .error .valueError := by
  have hel : decide ((if electric = true then 'E' else 'B') = 'E') = electric := by cases electric <;> decide
  have hEB : ((if electric = true then 'E' else 'B') = 'E' ∨ (if electric = true then 'E' else 'B') = 'B') := by
    cases electric <;> decide
  unfold kspace
  rw [parse_component]
  simp only [bind, Except.bind, hel]
  rw [if_neg (not_not.2 hEB)]
  simp only [fieldKey_eq, h]
  rfl

example : kspace lineSplines (fun f _ => .ok f) "By" [("Ey", fieldFreq 1)] .none omegaFree = .error .valueError :=
  kspace_missing_component lineSplines _ omegaFree _ false 1 .none rfl

/-- C40 violated: if a needed component of the other field is missing, the `ValueError` which names it is not raised, but an
`AttributeError`. -/
theorem kspace_missing_violated :
    kspace lineSplines (fun f _ => .ok f) "Ey" [("Ey", fieldFreq 1)] .none omegaFree = .error .attributeError := by
  have hg := fieldFreq_grid 1
  obtain ⟨F, e1, e2, e3⟩ := hg.ensure lineSplines_exact
  obtain rfl := e3 rfl
  have h1 : parseComponent "Ey" = .ok ('E', 1) := by decide
  have hdata : (((List.range [2].length).map fun d => ap ((fun _ => (0 : ℝ)) d) ((fun _ => Real.pi) d)
      ([2].getD d 0)).mapM gridData) = .ok [(0, ((2 : ℕ) - 1 : ℝ) * Real.pi)] := by
    have := gridData_ap 0 Real.pi (n := 2) (by omega)
    simp [List.range_succ, this, pure, Except.pure, bind, Except.bind]
  have hstep : (((List.range [2].length).map fun d => ap ((fun _ => (0 : ℝ)) d) ((fun _ => Real.pi) d)
      ([2].getD d 0)).mapM gridStep) = .ok [Real.pi] := by
    have := gridStep_ap 0 Real.pi (n := 2) (by omega)
    simp [List.range_succ, this, pure, Except.pure, bind, Except.bind]
  unfold kspace
  rw [h1]
  simp only [bind, Except.bind]
  rw [if_neg (by decide)]
  have hk : fieldKey (decide True) 1 = some "Ey" := rfl
  have hl : List.lookup "Ey" [("Ey", fieldFreq 1)] = some (fieldFreq 1) := rfl
  simp only [hk, hl, hg.toTransform_eq, e1, e2.grids, hdata, hstep]
  unfold kspaceTerm
  rfl

/-- C40: the frequency which is used without the argument `omega_func` is that of light in vacuum. -/
theorem omega_vacuum (kx ky kz : ℝ) :
    omegaFree [kx] = some (299792458 * |kx|) ∧ omegaFree [kx, ky] = some (299792458 * Real.sqrt (kx ^ 2 + ky ^ 2)) ∧
      omegaFree [kx, ky, kz] = some (299792458 * Real.sqrt (kx ^ 2 + ky ^ 2 + kz ^ 2)) := by
  refine ⟨?_, ?_, ?_⟩
  · simp [omegaFree, square, lightSpeed, Real.sqrt_sq_eq_abs]
  · simp [omegaFree, square, lightSpeed]
  · simp [omegaFree, square, lightSpeed, add_assoc]

end

end Postpic.Props
