import Mathlib.Analysis.SpecialFunctions.Trigonometric.Bounds
import Verif.Lemmas.Kspace
import Verif.Spec.EpochLike
import Verif.Props.FieldCalc

/-!
# Lemmas about the reconstruction of the k-space from dumps of EPOCH
-/

set_option autoImplicit false

namespace Postpic.Spec

open Postpic Postpic.Axes Postpic.Fields

noncomputable section

/-- The response of the mean of two neighbours is `cos(ω dt/2)`. -/
theorem norm_linResponse (dt w : ℝ) : ‖linResponse dt (1 / 2) w‖ = meanFactor dt w := by
  have h : linResponse dt (1 / 2) w =
      Complex.exp (((w * dt / 2 : ℝ) : ℂ) * Complex.I) * (Real.cos (w * dt / 2) : ℝ) := by
    unfold linResponse
    rw [Complex.ofReal_cos, Complex.cos, mul_div_assoc', mul_add, ← Complex.exp_add, ← Complex.exp_add]
    have e1 : ((w * dt / 2 : ℝ) : ℂ) * Complex.I + ((w * dt / 2 : ℝ) : ℂ) * Complex.I = Complex.I * ((dt * w : ℝ) : ℂ) := by
      push_cast
      ring
    have e2 : ((w * dt / 2 : ℝ) : ℂ) * Complex.I + -((w * dt / 2 : ℝ) : ℂ) * Complex.I = 0 := by ring
    rw [e1, e2, Complex.exp_zero]
    push_cast
    ring
  rw [h, norm_mul, Complex.norm_exp_ofReal_mul_I, one_mul, Complex.norm_real]
  rfl

/-- The mean of a wave is the wave times `cos(ω dt/2)`. -/
theorem halfStepMean_eq (dt w : ℝ) (A : ℂ) : halfStepMean dt w A = A * (Real.cos (w * dt / 2) : ℝ) := by
  unfold halfStepMean waveAt
  rw [Complex.ofReal_cos, Complex.cos]
  have e1 : -(Complex.I * ((w * -(dt / 2) : ℝ) : ℂ)) = ((w * dt / 2 : ℝ) : ℂ) * Complex.I := by
    push_cast
    ring
  have e2 : -(Complex.I * ((w * (dt / 2) : ℝ) : ℂ)) = -((w * dt / 2 : ℝ) : ℂ) * Complex.I := by
    push_cast
    ring
  rw [e1, e2]
  ring

/-- Dividing the mean by its factor gives the wave, if there are more than two steps per period. -/
theorem halfStepMean_div {dt w : ℝ} (h : |w * dt| < Real.pi) (A : ℂ) :
    halfStepMean dt w A / (meanFactor dt w : ℝ) = A := by
  have hc : 0 < Real.cos (w * dt / 2) := by
    apply Real.cos_pos_of_mem_Ioo
    obtain ⟨h1, h2⟩ := abs_lt.1 h
    constructor <;> linarith
  rw [halfStepMean_eq, meanFactor, abs_of_pos hc]
  rw [mul_div_assoc, div_self (by exact_mod_cast hc.ne'), mul_one]

section
variable {K V : Type} [_root_.Field K] [LinearOrder K]

/-- The second operand does not matter for the axes if it has the same lengths and remembers no origin. -/
theorem binaryMetaRev_left (a b : List (Meta K)) (h : List.Forall₂ (fun x y => x.1.len = y.1.len ∧ y.2.2 = none) a b) :
    binaryMetaRev a b = .ok a := by
  induction h with
  | nil => rfl
  | cons h1 _ ih =>
    simp only [binaryMetaRev, ih, h1.1, h1.2, bind, Except.bind]
    rfl

end

variable {f : Field ℝ ℂ} {shape : List ℕ} {x0 h : ℕ → ℝ}

theorem metas_unzip {F : Field ℝ ℂ} (h1 : F.ats.length = F.axes.length) (h2 : F.tao.length = F.axes.length) :
    F.metas.map (·.1) = F.axes ∧ F.metas.map (·.2.1) = F.ats ∧ F.metas.map (·.2.2) = F.tao := by
  unfold Field.metas
  refine ⟨?_, ?_, ?_⟩
  · rw [List.map_fst_zip (by simp [h1, h2])]
  · have : (fun q : Meta ℝ => q.2.1) = Prod.fst ∘ Prod.snd := rfl
    rw [this, ← List.map_map, List.map_snd_zip (by simp [h1, h2]), List.map_fst_zip (by omega)]
  · have : (fun q : Meta ℝ => q.2.2) = Prod.snd ∘ Prod.snd := rfl
    rw [this, ← List.map_map, List.map_snd_zip (by simp [h1, h2]), List.map_snd_zip (by omega)]

/-- Dividing by the response keeps grid and metadata. -/
theorem OnGrid.divide (hg : OnGrid f shape true x0 h) (axes : List (Axis ℝ)) (hax : axes.map Axis.len = shape)
    (dt : ℝ) (omega : List ℝ → Option ℝ) :
    ∃ resp g, responseOnK dt axes omega = .ok resp ∧ f.binary (· / ·) resp = .ok g ∧ OnGrid g shape true x0 h ∧
      g.axes = f.axes ∧ g.ats = f.ats ∧ g.tao = f.tao ∧ g.name = f.name ∧ g.unit = f.unit ∧
      ∀ idx, InBounds shape idx → g.matrix.at' idx = f.matrix.at' idx / responseAt dt omega (meshAt axes idx) := by
  have hsz : f.matrix.shape = shape := hg.size
  have hr : responseOnK dt axes omega = .ok ⟨"f", "", ⟨axes.map Axis.len, fun idx => responseAt dt omega (meshAt axes idx)⟩,
      axes, axes.map fun _ => some false, axes.map fun _ => none⟩ := by
    unfold responseOnK
    exact mkField_of_eq rfl (by rw [hax]; exact hg.three)
  obtain ⟨r, b1, b2, b3⟩ := Props.binary_same (V := ℂ) (· / ·) (a := f.matrix)
    (b := ⟨axes.map Axis.len, fun idx => responseAt dt omega (meshAt axes idx)⟩) (by simp [hax, hsz])
    (by rw [hsz]; exact hg.two)
  have hl1 : f.axes.map Axis.len = shape := by rw [← hsz]; exact hg.sound.ok.lengths
  have hlen : f.axes.length = shape.length := by rw [← hl1, List.length_map]
  have hlen' : axes.length = shape.length := by rw [← hax, List.length_map]
  have hats : f.ats.length = f.axes.length := by rw [hlen, ← hsz]; exact hg.sound.ok.states
  have htao : f.tao.length = f.axes.length := by rw [hlen, ← hsz]; exact hg.sound.ok.origins
  obtain ⟨m1, m2, m3⟩ := metas_unzip hats htao
  set resp : Field ℝ ℂ := ⟨"f", "", ⟨axes.map Axis.len, fun idx => responseAt dt omega (meshAt axes idx)⟩,
      axes, axes.map fun _ => some false, axes.map fun _ => none⟩ with hresp
  have hmeta : binaryMetaRev f.metas.reverse resp.metas.reverse = .ok f.metas.reverse := by
    apply binaryMetaRev_left
    rw [List.forall₂_reverse_iff, List.forall₂_iff_get]
    have e1 : f.metas.length = shape.length := by rw [← hlen, ← m1, List.length_map]
    have e2 : resp.metas.length = shape.length := by
      simp [Field.metas, hresp, hlen']
    refine ⟨by omega, ?_⟩
    intro i h1 h2
    have hi : i < shape.length := by omega
    have hi1 : i < f.axes.length := by omega
    have hi2 : i < axes.length := by omega
    have c1 : (f.axes[i]).len = shape[i] := by
      have := List.getElem_of_eq hl1 (i := i) (by simp; omega)
      simpa using this
    have c2 : (axes[i]).len = shape[i] := by
      have := List.getElem_of_eq hax (i := i) (by simp; omega)
      simpa using this
    constructor
    · simp [Field.metas, hresp, c1, c2]
    · simp [Field.metas, hresp]
  refine ⟨resp, ⟨f.name, f.unit, r, f.axes, f.ats, f.tao⟩, hr, ?_, ?_, rfl, rfl, rfl, rfl, rfl, ?_⟩
  · unfold Field.binary
    rw [hmeta]
    simp only [bind, Except.bind, List.reverse_reverse]
    have : Arr.binary (fun x1 x2 => x1 / x2) f.matrix resp.matrix = .ok r := b1
    rw [this]
    simp only [m1, m2, m3]
    exact mkField_of_eq (by rw [b2, hsz]; exact hl1) (by rw [b2, hsz]; exact hg.three)
  · have hs : (⟨f.name, f.unit, r, f.axes, f.ats, f.tao⟩ : Field ℝ ℂ).shape = f.shape := b2
    refine ⟨⟨⟨?_, ?_, ?_⟩, hg.sound.valid, ?_⟩, ?_, hg.some_dim, hg.three, hg.two, hg.pos, hg.states, by simp, hg.frequency⟩
    · rw [hs]; exact hg.sound.ok.lengths
    · rw [hs]; exact hg.sound.ok.states
    · rw [hs]; exact hg.sound.ok.origins
    · rw [hs]; exact hg.sound.nonempty
    · rw [hs]; exact hg.size
  · intro idx hidx
    exact b3 idx (by rw [hsz]; exact hidx.1)

theorem lookup_map_key {α β : Type} (φ : String → α → β) (l : List (String × α)) (k : String) :
    (l.map fun q => (q.1, φ q.1 q.2)).lookup k = (l.lookup k).map (φ k) := by
  induction l with
  | nil => rfl
  | cons q l ih =>
    obtain ⟨a, v⟩ := q
    simp only [List.map_cons, List.lookup_cons]
    by_cases hk : k = a
    · subst hk
      simp
    · rw [beq_eq_false_iff_ne.2 hk]
      exact ih

theorem mem_of_lookup {α : Type} {l : List (String × α)} {k : String} {v : α} (h : l.lookup k = some v) : (k, v) ∈ l := by
  induction l with
  | nil => simp at h
  | cons q l ih =>
    obtain ⟨a, w⟩ := q
    rw [List.lookup_cons] at h
    by_cases hk : k = a
    · subst hk
      simp at h
      simp [h]
    · rw [beq_eq_false_iff_ne.2 hk] at h
      exact List.mem_cons_of_mem _ (ih h)

end

end Postpic.Spec
