import Verif.Lemmas.EpochLike
import Verif.Props.Kspace

/-!
# Reconstruction of the k-space from fields at different times
-/

set_option autoImplicit false

namespace Postpic.Props

open Postpic Postpic.Axes Postpic.Fields Postpic.Spec

noncomputable section

/-- The field in the frequency domain. -/
def inFrequency (spl : Splines ℝ) (f : Field ℝ ℂ) : Field ℝ ℂ :=
  match f.ensureTransformState spl (.all true) with
  | .ok F => F
  | .error _ => f

/-- The field after a division which works. -/
def quotient (f resp : Field ℝ ℂ) : Field ℝ ℂ :=
  match f.binary (· / ·) resp with
  | .ok g => g
  | .error _ => f

theorem component_other (electric : Bool) (p j : Fin 3) : componentName (!electric) j ≠ componentName electric p := by
  revert electric p j
  decide

/-- C69: `kspace_epoch_like` divides the amplitudes of the field with the letter `align_to`, and only these, by `|cos(ω dt/2)|` with
the given dispersion relation, and then continues as `kspace` with the fourier method. With `k` the wave vector of a position, the
result is `E/e - ω/k² (k × B/b)` for a component of `E` and `B/b + 1/ω (k × E/e)` for a component of `B` with the divisors `e` and
`b`. The result has the axes of the transformed field. The dictionary stays as it was, unless the component is in the frequency
domain and not divided: then the field of the component is overwritten (see `epoch_argument_violated`). Partial: evenly spaced
grids with the same number of points for all fields of the dictionary, no `extent` (see `epoch_extent_partial`), the response nowhere 0; and the frequency in
the last step is always `c|k|`, the given dispersion relation is not used for it (see `epoch_dispersion_violated`). -/
theorem epoch_value_partial (spl : Splines ℝ) (hspl : ExactOnEven spl) (lin : Field ℝ ℂ → List ℝ → Res (Field ℝ ℂ))
    (omega : List ℝ → Option ℝ) (fields : List (String × Field ℝ ℂ)) (electric : Bool) (p : Fin 3)
    (dt : ℝ) (alignTo : String) (hal : alignTo = "E" ∨ alignTo = "B") (shape : List ℕ) (main : Field ℝ ℂ)
    (other : Fin 3 → Field ℝ ℂ) (state : Bool) (states : Fin 3 → Bool) (x0 h : ℕ → ℝ) (y0 : Fin 3 → ℕ → ℝ)
    (hin : KspaceInput fields electric p .fourier shape main other state states x0 h y0)
    (hall : ∀ q ∈ fields, ∃ s a b, OnGrid q.2 shape s a b) :
    ∃ (F : Field ℝ ℂ) (G : Fin 3 → Field ℝ ℂ) (r : Field ℝ ℂ) (after : List (String × Field ℝ ℂ)),
      main.ensureTransformState spl (.all true) = .ok F ∧
      (∀ j, Needed shape.length p j → (other j).ensureTransformState spl (.all true) = .ok (G j)) ∧
      kspaceEpochLike spl lin (componentName electric p) fields dt omega alignTo = .ok (r, after) ∧
      r.axes = F.axes ∧ r.ats = F.ats ∧ r.tao = F.tao ∧ r.name = F.name ∧ r.unit = F.unit ∧ r.shape = shape ∧
      (∀ idx, InBounds shape idx → ∀ w, omega ((List.ofFn (waveVector F idx)).take shape.length) = some w →
        meanFactor dt w ≠ 0 → ∀ A : Fin 3 → ℂ, (∀ j, Needed shape.length p j →
          A j = (G j).matrix.at' idx / (correction alignTo (!electric) dt w : ℝ)) →
        r.matrix.at' idx = F.matrix.at' idx / (correction alignTo electric dt w : ℝ) +
          crossFactor electric (omegaFree ((List.ofFn (waveVector F idx)).take shape.length)) (waveVector F idx) *
            cross (waveVector F idx) A p) ∧
      (state = false ∨ (if electric then "E" else "B") = alignTo → after = fields) ∧
      (state = true → (if electric then "E" else "B") ≠ alignTo →
        after = fields.map fun q => if q.1 = componentName electric p then (q.1, r) else q) := by
  set component := componentName electric p with hcomp
  -- the transformed fields
  have hfr : ∀ {f : Field ℝ ℂ} {s : Bool} {a b : ℕ → ℝ}, OnGrid f shape s a b →
      f.ensureTransformState spl (.all true) = .ok (inFrequency spl f) ∧ OnGrid (inFrequency spl f) shape true a b ∧
        (s = true → inFrequency spl f = f) := by
    intro f s a b hf
    obtain ⟨F, h1, h2, h3⟩ := hf.ensure hspl
    have : inFrequency spl f = F := by unfold inFrequency; rw [h1]
    rw [this]
    exact ⟨h1, h2, h3⟩
  obtain ⟨hF1, hF2, hF3⟩ := hfr hin.mainGrid
  set F := inFrequency spl main with hF
  have hlens : F.axes.map Axis.len = shape := by rw [← hF2.size]; exact hF2.sound.ok.lengths
  obtain ⟨resp, _, hresp, _⟩ := hF2.divide F.axes hlens dt omega
  have hdiv : ∀ {g : Field ℝ ℂ} {a b : ℕ → ℝ}, OnGrid g shape true a b →
      g.binary (· / ·) resp = .ok (quotient g resp) ∧ OnGrid (quotient g resp) shape true a b ∧
        (quotient g resp).axes = g.axes ∧ (quotient g resp).ats = g.ats ∧ (quotient g resp).tao = g.tao ∧
        (quotient g resp).name = g.name ∧ (quotient g resp).unit = g.unit ∧
        ∀ idx, InBounds shape idx → (quotient g resp).matrix.at' idx =
          g.matrix.at' idx / responseAt dt omega (meshAt F.axes idx) := by
    intro g a b hg
    obtain ⟨resp', q, h1, h2, h3⟩ := hg.divide F.axes hlens dt omega
    rw [hresp] at h1
    obtain rfl := Except.ok.inj h1
    have : quotient g resp = q := by unfold quotient; rw [h2]
    rw [this]
    exact ⟨h2, h3⟩
  -- which fields are divided
  let d : Bool := decide ((if electric then "E" else "B") ≠ alignTo)
  let φ : String → Field ℝ ℂ → Field ℝ ℂ := fun key g => if decide (key = component) = d then g else quotient g resp
  have hφ : ∀ (key : String) {g : Field ℝ ℂ} {a b : ℕ → ℝ}, OnGrid g shape true a b →
      OnGrid (φ key g) shape true a b ∧ (φ key g).axes = g.axes ∧ (φ key g).ats = g.ats ∧ (φ key g).tao = g.tao ∧
        (φ key g).name = g.name ∧ (φ key g).unit = g.unit := by
    intro key g a b hg
    simp only [φ]
    split
    · exact ⟨hg, rfl, rfl, rfl, rfl, rfl⟩
    · obtain ⟨_, h2, h3, h4, h5, h6, h7, _⟩ := hdiv hg
      exact ⟨h2, h3, h4, h5, h6, h7⟩
  have htr : (fields.mapM fun q => do
      let F ← q.2.ensureTransformState spl (.all true)
      return (q.1, F)) = (.ok (fields.map fun q => (q.1, inFrequency spl q.2)) : Res _) := by
    apply mapM_of_forall2
    rw [List.forall₂_map_right_iff, List.forall₂_same]
    intro q hq
    obtain ⟨s, a, b, hg⟩ := hall q hq
    rw [(hfr hg).1]
    rfl
  have hco : ((fields.map fun q => (q.1, inFrequency spl q.2)).mapM (correctOne component d resp)) =
      .ok (fields.map fun q => (q.1, φ q.1 (inFrequency spl q.2))) := by
    apply mapM_of_forall2
    rw [List.forall₂_map_left_iff, List.forall₂_map_right_iff, List.forall₂_same]
    intro q hq
    obtain ⟨s, a, b, hg⟩ := hall q hq
    simp only [correctOne, φ]
    split
    · rfl
    · rw [(hdiv (hfr hg).2.1).1]
      rfl
  have hlook : ∀ {key : String} {g : Field ℝ ℂ}, fields.lookup key = some g →
      (fields.map fun q => (q.1, φ q.1 (inFrequency spl q.2))).lookup key = some (φ key (inFrequency spl g)) := by
    intro key g hk
    rw [lookup_map_key (fun k g => φ k (inFrequency spl g)), hk]
    rfl
  have hin' : KspaceInput (fields.map fun q => (q.1, φ q.1 (inFrequency spl q.2))) electric p .fourier shape
      (φ component F) (fun j => φ (componentName (!electric) j) (inFrequency spl (other j))) true (fun _ => true) x0 h y0 := by
    refine ⟨hlook hin.present, (hφ _ hF2).1, fun j hj => hlook (hin.othersPresent j hj), ?_, hin.aligned⟩
    intro j hj
    exact (hφ _ (hfr (hin.otherGrid j hj)).2.1).1
  obtain ⟨F', G', r, k1, _, k3, k4, k5, k6, k7, k8, k9, k10, k11, k12⟩ := kspace_ok hspl lin omegaFree hin'
  obtain rfl := k3 rfl
  obtain ⟨_, p2, p3, p4, p5, p6⟩ := hφ component hF2
  have hG' : ∀ j, Needed shape.length p j → G' j = φ (componentName (!electric) j) (inFrequency spl (other j)) := by
    intro j hj
    have hg := (hφ (componentName (!electric) j) (hfr (hin.otherGrid j hj)).2.1).1
    have h1 := k4 j hj
    obtain ⟨h2, _, h3⟩ := hfr hg
    rw [h2] at h1
    rw [← Except.ok.inj h1, h3 rfl]
  refine ⟨F, fun j => inFrequency spl (other j), r, if (if state then [] else List.range shape.length) = [] ∧ d = true then
      fields.map fun q => if q.1 = component then (q.1, r) else q else fields, hF1,
    fun j hj => (hfr (hin.otherGrid j hj)).1, ?_, k6.trans p2, k7.trans p3, k8.trans p4, k9.trans p5, k10.trans p6, k11, ?_, ?_, ?_⟩
  · unfold kspaceEpochLike
    have hpar : parseComponent component = .ok ((if electric then 'E' else 'B'), p.val) := parse_component electric p
    rw [hpar]
    have hd : decide ((if electric = true then 'E' else 'B').toString ≠ alignTo) = d := by cases electric <;> rfl
    have hmain : (fields.map fun q => (q.1, inFrequency spl q.2)).lookup component = some F := by
      rw [lookup_map_key (fun _ g => inFrequency spl g), hin.present]
      rfl
    simp only [bind, Except.bind, pure, Except.pure] at htr ⊢
    have hpres : fields.lookup component = some main := hin.present
    have k5' : kspace spl lin component (fields.map fun q => (q.1, φ q.1 (inFrequency spl q.2))) .fourier omegaFree = _ := k5
    simp only [hpres, htr, hmain, hresp, hd, hco, k5', hin.mainGrid.toTransform_eq]
    cases state <;> simp
  · intro idx hidx w hw hmf A hA
    have hresp' : responseAt dt omega (meshAt F.axes idx) = (meanFactor dt w : ℝ) := by
      unfold responseAt
      rw [meshAt_take hF2 hidx, hw]
      simp only [norm_linResponse]
    have hval : ∀ (key : String) {g : Field ℝ ℂ} {a b : ℕ → ℝ}, OnGrid g shape true a b → (φ key g).matrix.at' idx =
        if decide (key = component) = d then g.matrix.at' idx else g.matrix.at' idx / (meanFactor dt w : ℝ) := by
      intro key g a b hg
      simp only [φ]
      split
      · rfl
      · rw [(hdiv hg).2.2.2.2.2.2.2 idx hidx, hresp']
    have hwave : waveVector (φ component F) idx = waveVector F idx := by
      unfold waveVector gridAlong
      rw [p2]
    have hkey : ∀ j, componentName (!electric) j ≠ component := by
      intro j
      rw [hcomp]
      exact component_other electric p j
    rw [k12 idx hidx A (by
      intro j hj
      rw [hA j hj, hG' j hj, hval _ (hfr (hin.otherGrid j hj)).2.1, decide_eq_false (hkey j)]
      rcases hal with rfl | rfl <;> cases electric <;> simp [correction, d]), hwave, hval component hF2]
    congr 1
    rw [decide_eq_true rfl]
    rcases hal with rfl | rfl <;> cases electric <;> simp [correction, d]
  · rintro (rfl | hl)
    · have := hin.mainGrid.range_ne
      simp only [Bool.false_eq_true, if_false]
      rw [if_neg (fun hc => this hc.1)]
    · rw [if_neg (fun hc => by simpa [d, hl] using hc.2)]
  · rintro rfl hl
    rw [if_pos ⟨rfl, by simpa [d] using hl⟩]

/-- Dividing what was written by the correction gives the amplitude. -/
theorem dumped_div {dt w : ℝ} (h : |w * dt| < Real.pi) (averaged : String) (electric : Bool) (A : ℂ) :
    dumped averaged electric dt w A / (correction averaged electric dt w : ℝ) = A := by
  unfold dumped correction
  by_cases hc : (if electric = true then "E" else "B") = averaged
  · rw [if_pos hc, if_pos hc, halfStepMean_div h]
  · rw [if_neg hc, if_neg hc]
    simp

theorem meanFactor_ne {dt w : ℝ} (h : |w * dt| < Real.pi) : meanFactor dt w ≠ 0 := by
  have hc : 0 < Real.cos (w * dt / 2) := by
    apply Real.cos_pos_of_mem_Ioo
    obtain ⟨h1, h2⟩ := abs_lt.1 h
    constructor <;> linarith
  unfold meanFactor
  rw [abs_of_pos hc]
  exact hc.ne'

theorem vacuumFrequency_ne {k : Fin 3 → ℝ} (hk : k ≠ 0) : vacuumFrequency k ≠ 0 := by
  have hk2 : k 0 ^ 2 + k 1 ^ 2 + k 2 ^ 2 ≠ 0 := by
    intro hs
    apply hk
    funext d
    have h0 := sq_nonneg (k 0)
    have h1 := sq_nonneg (k 1)
    have h2 := sq_nonneg (k 2)
    have : k d ^ 2 = 0 := by fin_cases d <;> simp <;> nlinarith
    simpa using this
  have hpos : 0 < k 0 ^ 2 + k 1 ^ 2 + k 2 ^ 2 := lt_of_le_of_ne (by positivity) (Ne.symm hk2)
  unfold vacuumFrequency lightSpeed
  have := Real.sqrt_pos.2 hpos
  positivity

/-- C69: let `E` and `B` be the amplitudes of a plane wave in vacuum at a position with the wave vector `k ≠ 0`, with more than two steps
per period, and let the dictionary contain them as a simulation writes them, that is, for the field with the letter `align_to` the
mean of the values half a step before and after the time of the other field. Then the result of `kspace_epoch_like` is twice the
component itself for a wave which runs along `k`, and 0 for a wave which runs against `k`: the mean has been undone. Partial: as
for `epoch_value_partial`, and only for the dispersion relation of the vacuum. -/
theorem epoch_plane_wave_partial (spl : Splines ℝ) (hspl : ExactOnEven spl)
    (lin : Field ℝ ℂ → List ℝ → Res (Field ℝ ℂ)) (fields : List (String × Field ℝ ℂ)) (electric : Bool) (p : Fin 3)
    (dt : ℝ) (alignTo : String) (hal : alignTo = "E" ∨ alignTo = "B") (shape : List ℕ) (main : Field ℝ ℂ)
    (other : Fin 3 → Field ℝ ℂ) (state : Bool) (states : Fin 3 → Bool) (x0 h : ℕ → ℝ) (y0 : Fin 3 → ℕ → ℝ)
    (hin : KspaceInput fields electric p .fourier shape main other state states x0 h y0)
    (hall : ∀ q ∈ fields, ∃ s a b, OnGrid q.2 shape s a b) :
    ∃ (F : Field ℝ ℂ) (G : Fin 3 → Field ℝ ℂ) (r : Field ℝ ℂ) (after : List (String × Field ℝ ℂ)),
      main.ensureTransformState spl (.all true) = .ok F ∧
      (∀ j, Needed shape.length p j → (other j).ensureTransformState spl (.all true) = .ok (G j)) ∧
      kspaceEpochLike spl lin (componentName electric p) fields dt omegaFree alignTo = .ok (r, after) ∧
      ∀ idx, InBounds shape idx → ∀ (E B : Fin 3 → ℂ) (w : ℝ), w = vacuumFrequency (waveVector F idx) →
        waveVector F idx ≠ 0 → |w * dt| < Real.pi →
        F.matrix.at' idx = dumped alignTo electric dt w (if electric then E p else B p) →
        (∀ j, Needed shape.length p j → (G j).matrix.at' idx =
          dumped alignTo (!electric) dt w (if electric then B j else E j)) →
        (PlaneWave 1 (waveVector F idx) w E B → r.matrix.at' idx = 2 * if electric then E p else B p) ∧
        (PlaneWave (-1) (waveVector F idx) w E B → r.matrix.at' idx = 0) := by
  obtain ⟨F, G, r, after, h1, h2, h3, _, _, _, _, _, _, h4, _, _⟩ := epoch_value_partial spl hspl lin omegaFree fields electric p
    dt alignTo hal shape main other state states x0 h y0 hin hall
  refine ⟨F, G, r, after, h1, h2, h3, ?_⟩
  intro idx hidx E B w hw hk hdt hF hG
  obtain ⟨F', e1, e2, _⟩ := hin.mainGrid.ensure hspl
  rw [h1] at e1
  obtain rfl := Except.ok.inj e1
  have hfree : omegaFree ((List.ofFn (waveVector F idx)).take shape.length) = some w := by
    unfold omegaFree
    rw [← meshAt_take e2 hidx, square_mesh e2 hidx, hw]
    rfl
  have hw0 : w ≠ 0 := hw ▸ vacuumFrequency_ne hk
  have hr := h4 idx hidx w hfree (meanFactor_ne hdt) (if electric then B else E) (by
    intro j hj
    rw [hG j hj, dumped_div hdt]
    cases electric <;> rfl)
  rw [hF, dumped_div hdt, hfree] at hr
  cases electric with
  | true =>
    simp only [if_true] at hr ⊢
    constructor
    · intro hp
      rw [hr, (plane_wave_sum hw0 hk hp (Or.inl rfl) p).1]
      norm_num
    · intro hp
      rw [hr, (plane_wave_sum hw0 hk hp (Or.inr rfl) p).1]
      norm_num
  | false =>
    simp only [Bool.false_eq_true, if_false] at hr ⊢
    constructor
    · intro hp
      rw [hr, (plane_wave_sum hw0 hk hp (Or.inl rfl) p).2]
      norm_num
    · intro hp
      rw [hr, (plane_wave_sum hw0 hk hp (Or.inr rfl) p).2]
      norm_num

/-! ### Examples and violations -/

/-- `Ey` and `Bz` of a one-dimensional simulation. -/
theorem epochInput (a b : ℂ) : KspaceInput [("Ey", fieldFreq a), ("Bz", fieldFreq b)] true 1 .fourier [2] (fieldFreq a)
    (fun _ => fieldFreq b) true (fun _ => true) (fun _ => 0) (fun _ => Real.pi) (fun _ _ => 0) := by
  refine ⟨rfl, fieldFreq_grid a, ?_, fun _ _ => fieldFreq_grid b, ?_⟩
  · intro j hj
    have : j = 2 := (needed_one j).1 hj
    subst this
    rfl
  · intro j _ d _
    have := Real.pi_pos
    simp only [sub_self, abs_zero]
    positivity

theorem epochAll (a b : ℂ) : ∀ q ∈ [("Ey", fieldFreq a), ("Bz", fieldFreq b)], ∃ s x y, OnGrid q.2 [2] s x y := by
  intro q hq
  simp only [List.mem_cons, List.not_mem_nil, or_false] at hq
  rcases hq with rfl | rfl <;> exact ⟨_, _, _, fieldFreq_grid _⟩

/-- The step which light needs for half of a cell of the grid of `fieldFreq`. -/
def halfCell : ℝ := Real.pi / (2 * lightSpeed)

example := epoch_plane_wave_partial lineSplines lineSplines_exact (fun f _ => .ok f) _ _ _ halfCell "B" (Or.inr rfl) _ _ _ _ _ _ _ _
  (epochInput 1 1) (epochAll 1 1)

example : |vacuumFrequency ![1, 0, 0] * halfCell| < Real.pi := by
  have := Real.pi_pos
  have hc : (0 : ℝ) < lightSpeed := by unfold lightSpeed; norm_num
  have : vacuumFrequency ![1, 0, 0] * halfCell = Real.pi / 2 := by
    simp [vacuumFrequency, halfCell]
    field_simp
  rw [this, abs_of_pos (by positivity)]
  linarith

example := epoch_value_partial lineSplines lineSplines_exact (fun f _ => .ok f) (omegaYee [2, 1 / 2] 1) _ _ _ 1 "E" (Or.inl rfl) _ _ _
  _ _ _ _ _ staggeredInput (by
    intro q hq
    simp only [List.mem_cons, List.not_mem_nil, or_false] at hq
    rcases hq with rfl | rfl <;> exact ⟨_, _, _, field32At_grid _ _⟩)

/-- The dispersion relation of a simulation with the cell length `π` and the step `halfCell`: at `k = 1` the frequency is `2c/3`. -/
theorem yee_frequency : omegaYee [Real.pi] halfCell [1] = some (2 * lightSpeed / 3) := by
  have hpi := Real.pi_pos
  have hc : (0 : ℝ) < lightSpeed := by unfold lightSpeed; norm_num
  have hs : lightSpeed * halfCell * Real.sqrt (([1].zip [Real.pi]).map fun p : ℝ × ℝ => (Real.sin (p.1 * p.2 / 2) / p.2) ^ 2).sum =
      1 / 2 := by
    simp only [List.zip_cons_cons, List.zip_nil_left, List.map_cons, List.map_nil, List.sum_cons, List.sum_nil, one_mul, add_zero,
      Real.sin_pi_div_two]
    rw [Real.sqrt_sq (by positivity)]
    unfold halfCell
    field_simp
  have harc : Real.arcsin (1 / 2) = Real.pi / 6 := by
    rw [← Real.sin_pi_div_six]
    exact Real.arcsin_sin (by linarith) (by linarith)
  unfold omegaYee
  rw [hs]
  simp only
  rw [if_neg (by norm_num [abs_of_pos]), harc]
  unfold halfCell
  congr 1
  field_simp
  norm_num

/-- C69 violated: a wave of a simulation whose dispersion relation is the one of the Yee scheme, and this relation is passed to
`kspace_epoch_like`. At `k = (1, 0, 0)` the frequency is `2c/3`, and the amplitudes `Ey = 1` and `Bz = 1/ω` are those of a wave along
`k`, with the mean over half steps for `B`. The result is not 2 as with the right frequency, but 5/2, because the last step uses
`c|k|`; for the wave against `k` it is -1/2 instead of 0. -/
theorem epoch_dispersion_violated (dir : ℝ) (hd : dir = 1 ∨ dir = -1) :
    ∃ (w : ℝ) (E B : Fin 3 → ℂ) (fields : List (String × Field ℝ ℂ)) (r : Field ℝ ℂ) (after : List (String × Field ℝ ℂ)),
      omegaYee [Real.pi] halfCell [1] = some w ∧ |w * halfCell| < Real.pi ∧ PlaneWave dir ![1, 0, 0] w E B ∧ E 1 = 1 ∧
      fields = [("Ey", fieldFreq (E 1)), ("Bz", fieldFreq (dumped "B" false halfCell w (B 2)))] ∧
      waveVector (fieldFreq (E 1)) [0] = ![1, 0, 0] ∧
      kspaceEpochLike lineSplines (fun f _ => .ok f) "Ey" fields halfCell (omegaYee [Real.pi] halfCell) "B" = .ok (r, after) ∧
      r.matrix.at' [0] = 1 + dir * (3 / 2) ∧ r.matrix.at' [0] ≠ 1 + dir := by
  have hpi := Real.pi_pos
  have hc : (0 : ℝ) < lightSpeed := by unfold lightSpeed; norm_num
  have hcc : (lightSpeed : ℂ) ≠ 0 := by exact_mod_cast hc.ne'
  set w : ℝ := 2 * lightSpeed / 3 with hw
  have hw0 : w ≠ 0 := by positivity
  have hwdt : |w * halfCell| < Real.pi := by
    have : w * halfCell = Real.pi / 3 := by
      rw [hw]
      unfold halfCell
      field_simp
    rw [this, abs_of_pos (by positivity)]
    linarith
  have hdir : dir * dir = 1 := by rcases hd with rfl | rfl <;> norm_num
  have hdirc : (dir : ℂ) * dir = 1 := by exact_mod_cast hdir
  let E : Fin 3 → ℂ := ![0, 1, 0]
  let B : Fin 3 → ℂ := ![0, 0, dir / w]
  have hwc : (w : ℂ) ≠ 0 := by exact_mod_cast hw0
  obtain ⟨F, G, r, after, h1, h2, h3, _, _, _, _, _, _, h4, _, _⟩ := epoch_value_partial lineSplines lineSplines_exact
    (fun f _ => .ok f) (omegaYee [Real.pi] halfCell) _ true 1 halfCell "B" (Or.inr rfl) _ _ _ _ _ _ _ _
    (epochInput (E 1) (dumped "B" false halfCell w (B 2))) (epochAll _ _)
  have hF : F = fieldFreq (E 1) := by
    obtain ⟨F', e1, e2, e3⟩ := (fieldFreq_grid (E 1)).ensure lineSplines_exact
    rw [h1] at e1
    rw [Except.ok.inj e1, e3 rfl]
  have hG : G 2 = fieldFreq (dumped "B" false halfCell w (B 2)) := by
    have := h2 2 ((needed_one 2).2 rfl)
    obtain ⟨F', e1, e2, e3⟩ := (fieldFreq_grid (dumped "B" false halfCell w (B 2))).ensure lineSplines_exact
    rw [this] at e1
    rw [Except.ok.inj e1, e3 rfl]
  have hval := h4 [0] freq_index w (by
    rw [hF, freq_wave]
    simp only [List.length_cons, List.length_nil]
    exact yee_frequency) (meanFactor_ne hwdt) B (by
      intro j hj
      have : j = 2 := (needed_one j).1 hj
      subst this
      rw [hG]
      exact (dumped_div hwdt "B" false (B 2)).symm)
  have hne : (![1, 0, 0] : Fin 3 → ℝ) ≠ 0 := fun h => by simpa using congrFun h 0
  have hr : r.matrix.at' [0] = 1 + dir * (3 / 2) := by
    rw [hval, hF, freq_wave]
    simp [crossFactor, cross, cross_apply, hne, fieldFreq, omegaFree, square, correction, E, B, hw]
    field_simp
  refine ⟨w, E, B, _, r, after, yee_frequency, hwdt, ⟨?_, ?_⟩, rfl, rfl, freq_wave _, h3, hr, ?_⟩
  · funext d
    fin_cases d <;> simp [cross, cross_apply, E, B]
    field_simp
    rw [pow_two, hdirc]
  · simp [E]
  · rw [hr]
    intro hcontra
    have : (dir : ℂ) = 0 := by linear_combination 2 * hcontra
    have : dir = 0 := by exact_mod_cast this
    rw [this] at hdir
    norm_num at hdir

/-- C69 violated: if the field of the component is in the frequency domain already and `align_to` is the other letter, the object of
the caller is overwritten with the result. -/
theorem epoch_argument_violated : ∃ (f : Field ℝ ℂ) (fields : List (String × Field ℝ ℂ)) (r : Field ℝ ℂ)
    (after : List (String × Field ℝ ℂ)),
    kspaceEpochLike lineSplines (fun f _ => .ok f) "Ey" fields 0 omegaFree "B" = .ok (r, after) ∧
      fields.lookup "Ey" = some f ∧ f.matrix.at' [0] = 1 ∧
      ∃ g, after.lookup "Ey" = some g ∧ g.matrix.at' [0] = 1 + lightSpeed := by
  obtain ⟨F, G, r, after, h1, h2, h3, _, _, _, _, _, _, h4, _, h5⟩ := epoch_value_partial lineSplines lineSplines_exact
    (fun f _ => .ok f) omegaFree _ true 1 0 "B" (Or.inr rfl) _ _ _ _ _ _ _ _ (epochInput 1 1) (epochAll _ _)
  have hF : F = fieldFreq 1 := by
    obtain ⟨F', e1, e2, e3⟩ := (fieldFreq_grid 1).ensure lineSplines_exact
    rw [h1] at e1
    rw [Except.ok.inj e1, e3 rfl]
  have hG : G 2 = fieldFreq 1 := by
    have := h2 2 ((needed_one 2).2 rfl)
    obtain ⟨F', e1, e2, e3⟩ := (fieldFreq_grid 1).ensure lineSplines_exact
    rw [this] at e1
    rw [Except.ok.inj e1, e3 rfl]
  have hone : ∀ w : ℝ, meanFactor 0 w = 1 := by
    intro w
    simp [meanFactor]
  have hne : (![1, 0, 0] : Fin 3 → ℝ) ≠ 0 := fun h => by simpa using congrFun h 0
  have hval := h4 [0] freq_index lightSpeed (by
    rw [hF, freq_wave]
    simp [omegaFree, square]) (by rw [hone]; norm_num) ![0, 0, 1] (by
      intro j hj
      have : j = 2 := (needed_one j).1 hj
      subst this
      rw [hG]
      simp [correction, hone, fieldFreq])
  refine ⟨fieldFreq 1, _, r, after, h3, rfl, rfl, r, ?_, ?_⟩
  · rw [h5 rfl (by decide)]
    rfl
  · rw [hval, hF, freq_wave]
    simp [crossFactor, cross, cross_apply, hne, fieldFreq, omegaFree, square, correction]

end

end Postpic.Props
