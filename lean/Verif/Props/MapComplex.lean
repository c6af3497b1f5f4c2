import Mathlib.Analysis.SpecialFunctions.Complex.Arg
import Mathlib.Analysis.SpecialFunctions.Trigonometric.Bounds
import Verif.Spec.MapComplex
import Verif.Lemmas.Calculus
import Verif.Props.MapCoordinates

/-!
# C104: resampling complex fields, and the numerical Jacobian
-/

set_option autoImplicit false

namespace Postpic.Props

open Postpic Postpic.Axes Postpic.Fields Postpic.Spec

noncomputable section

theorem mapPart_ok (sample : Arr ℝ → List ℝ → Res ℝ) (f : Field ℝ ℂ) (newaxes : List (Axis ℝ)) (T : List ℝ → List ℝ)
    (part : Arr ℝ) (val : List ℕ → ℝ)
    (h : ∀ idx, InBounds (newaxes.map Axis.len) idx →
      (⟨f.name, f.unit, part, f.axes, f.ats, f.tao⟩ : Field ℝ ℝ).sampleAt sample newaxes T idx = .ok (val idx)) :
    ∃ a, f.mapPart sample newaxes T part = .ok a ∧
      ∀ idx, InBounds (newaxes.map Axis.len) idx → a.at' idx = val idx := by
  obtain ⟨r, r1, r2, r3, r4, r5, r6, r7⟩ := mapCoordinates_ok sample
    (⟨f.name, f.unit, part, f.axes, f.ats, f.tao⟩ : Field ℝ ℝ) newaxes T (fun _ => 1) false (some (T, fun _ => 1)) rfl
    (by simp) val h
  refine ⟨r.matrix, ?_, ?_⟩
  · unfold Field.mapPart
    simp only [r1, bind, Except.bind, pure, Except.pure]
  · intro idx hidx
    rw [r7 idx (by rw [r3]; exact hidx)]
    simp

theorem gridPoint_unique {newaxes : List (Axis ℝ)} {idx : List ℕ} {point : List ℝ} (hidx : InBounds (newaxes.map Axis.len) idx)
    (h : List.Forall₂ (fun (p : Axis ℝ × ℕ) x => p.1.grid[p.2]? = some x) (newaxes.zip idx) point) :
    gridPoint newaxes idx = point := by
  obtain ⟨g1, g2⟩ := gridPoint_get hidx
  have hl := hidx.1
  rw [List.length_map] at hl
  have h0 := h.length_eq
  rw [List.length_zip, hl, min_self] at h0
  apply List.ext_get (by rw [g1, h0])
  intro d h1 h2
  have a := (List.forall₂_iff_get.1 h).2 d (by rw [List.length_zip, hl, min_self]; omega) h2
  simp only [List.get_eq_getElem, List.getElem_zip] at a ⊢
  obtain ⟨g, hg, hd⟩ := g2 d (idx[d]'(by omega)) (newaxes[d]'(by omega)) (List.getElem?_eq_getElem _)
    (List.getElem?_eq_getElem _)
  obtain ⟨_, hd'⟩ := List.getElem?_eq_some_iff.1 hd
  rw [hd']
  exact Option.some.inj (hg.symm.trans a)

theorem sampleAt_found (sample : Arr ℝ → List ℝ → Res ℝ) (f : Field ℝ ℂ) (hf : f.Sound) (newaxes : List (Axis ℝ))
    (T : List ℝ → List ℝ) (part : Arr ℝ) (hpart : part.shape = f.shape) (idx : List ℕ) (pos : List ℝ) (v : ℝ)
    (hidx : InBounds (newaxes.map Axis.len) idx) (h : FoundAt f newaxes T idx pos) (hs : sample part pos = .ok v) :
    (⟨f.name, f.unit, part, f.axes, f.ats, f.tao⟩ : Field ℝ ℝ).sampleAt sample newaxes T idx = .ok v := by
  obtain ⟨point, h1, h2, h3⟩ := h
  unfold Field.sampleAt
  rw [gridPoint_unique hidx h1]
  have : (f.axes.zip (T point)).mapM (fun p => p.1.valueToIndex p.2) = .ok pos := mapM_of_forall2 h3
  simp only [this, bind, Except.bind]
  have hlen := h3.length_eq
  rw [List.length_zip, ok_axes_length hf.ok, h2, min_self] at hlen
  have hsh : (⟨f.name, f.unit, part, f.axes, f.ats, f.tao⟩ : Field ℝ ℝ).shape = f.shape := hpart
  rw [hsh, if_neg (not_not.2 hlen.symm), hs]

/-- Two parts, put together. -/
theorem mapComplex_ok (sample : Arr ℝ → List ℝ → Res ℝ) (unwrap : Option (Arr ℝ → Arr ℝ)) (f : Field ℝ ℂ) (hf : f.Sound)
    (newaxes : List (Axis ℝ)) (T : Option (List ℝ → List ℝ)) (detFunc : Option (List ℝ → ℝ))
    (jacFunc : Option (List ℝ → ℕ → ℕ → ℝ)) (mode : String) (preserve : Bool)
    (hp : preserve = true → newaxes.length = f.shape.length) (det : List ℕ → ℝ)
    (hdet : preserve = true → determinant newaxes T detFunc jacFunc = .ok det)
    (pos : List ℕ → List ℝ) (hpos : ∀ idx, InBounds (newaxes.map Axis.len) idx → FoundAt f newaxes (T.getD id) idx (pos idx))
    (a b : Arr ℝ) (ha : a.shape = f.shape) (hb : b.shape = f.shape) (x y : List ℕ → ℝ)
    (hx : ∀ idx, InBounds (newaxes.map Axis.len) idx → sample a (pos idx) = .ok (x idx))
    (hy : ∀ idx, InBounds (newaxes.map Axis.len) idx → sample b (pos idx) = .ok (y idx))
    (put : ℝ → ℝ → ℂ)
    (hput : mode = "cartesian" ∧ a = Arr.each Complex.re f.matrix ∧ b = Arr.each Complex.im f.matrix ∧
        put = (fun u v => (⟨u, v⟩ : ℂ)) ∨
      (mode = "polar" ∨ mode = "polar-no-unwrap") ∧ a = Arr.each (fun z => ‖z‖) f.matrix ∧
        b = (if mode = "polar" then (match unwrap with
          | some u => u (Arr.each Complex.arg f.matrix)
          | none => Arr.each Complex.arg f.matrix) else Arr.each Complex.arg f.matrix) ∧
        put = fun (u v : ℝ) => (u : ℂ) * Complex.exp (Complex.I * (v : ℂ))) :
    ∃ r, f.mapComplex sample unwrap newaxes T detFunc jacFunc mode preserve = .ok r ∧ r.axes = newaxes ∧
      r.shape = newaxes.map Axis.len ∧ r.name = f.name ∧ r.unit = f.unit ∧
      ∀ idx, InBounds r.shape idx →
        r.matrix.at' idx = if preserve then det idx * put (x idx) (y idx) else put (x idx) (y idx) := by
  obtain ⟨a', a1, a2⟩ := mapPart_ok sample f newaxes (T.getD id) a x
    (fun idx hidx => sampleAt_found sample f hf newaxes _ a ha idx _ _ hidx (hpos idx hidx) (hx idx hidx))
  obtain ⟨b', b1, b2⟩ := mapPart_ok sample f newaxes (T.getD id) b y
    (fun idx hidx => sampleAt_found sample f hf newaxes _ b hb idx _ _ hidx (hpos idx hidx) (hy idx hidx))
  have hc : ¬ (preserve = true ∧ (newaxes.length : ℤ) ≠ f.dims) :=
    fun hh => hh.2 (by rw [dims_sound hf, hp hh.1])
  unfold Field.mapComplex
  rcases hput with ⟨rfl, rfl, rfl, rfl⟩ | ⟨hm, rfl, rfl, rfl⟩
  · simp only [if_neg hc, if_true, a1, b1, bind, Except.bind, pure, Except.pure]
    cases preserve with
    | false =>
      refine ⟨_, rfl, rfl, rfl, rfl, rfl, ?_⟩
      intro idx hidx
      simp only [Bool.false_eq_true, if_false, a2 idx hidx, b2 idx hidx]
    | true =>
      simp only [hdet rfl, if_true]
      refine ⟨_, rfl, rfl, rfl, rfl, rfl, ?_⟩
      intro idx hidx
      simp only [a2 idx hidx, b2 idx hidx]
  · have hm' : mode ≠ "cartesian" := by
      rcases hm with rfl | rfl <;> decide
    simp only [if_neg hc, if_neg hm', if_pos hm, a1, bind, Except.bind, pure, Except.pure]
    cases unwrap
    all_goals
      simp only at b1
      rw [b1]
      cases preserve with
      | false =>
        refine ⟨_, rfl, rfl, rfl, rfl, rfl, ?_⟩
        intro idx hidx
        simp only [Bool.false_eq_true, if_false, a2 idx hidx, b2 idx hidx]
      | true =>
        simp only [hdet rfl, if_true]
        refine ⟨_, rfl, rfl, rfl, rfl, rfl, ?_⟩
        intro idx hidx
        simp only [a2 idx hidx, b2 idx hidx]

/-- C104, mode `'cartesian'`: the real part of the result is the real part of the data, sampled at the transformed point, and the
imaginary part is the imaginary part of the data; times the determinant if the integral is to be preserved. -/
theorem map_complex_cartesian (sample : Arr ℝ → List ℝ → Res ℝ) (unwrap : Option (Arr ℝ → Arr ℝ)) (f : Field ℝ ℂ) (hf : f.Sound)
    (newaxes : List (Axis ℝ)) (T : Option (List ℝ → List ℝ)) (detFunc : Option (List ℝ → ℝ))
    (jacFunc : Option (List ℝ → ℕ → ℕ → ℝ)) (preserve : Bool)
    (hp : preserve = true → newaxes.length = f.shape.length) (det : List ℕ → ℝ)
    (hdet : preserve = true → determinant newaxes T detFunc jacFunc = .ok det)
    (pos : List ℕ → List ℝ) (hpos : ∀ idx, InBounds (newaxes.map Axis.len) idx → FoundAt f newaxes (T.getD id) idx (pos idx))
    (x y : List ℕ → ℝ)
    (hx : ∀ idx, InBounds (newaxes.map Axis.len) idx → sample (Arr.each Complex.re f.matrix) (pos idx) = .ok (x idx))
    (hy : ∀ idx, InBounds (newaxes.map Axis.len) idx → sample (Arr.each Complex.im f.matrix) (pos idx) = .ok (y idx)) :
    ∃ r, f.mapComplex sample unwrap newaxes T detFunc jacFunc "cartesian" preserve = .ok r ∧ r.axes = newaxes ∧
      r.shape = newaxes.map Axis.len ∧ r.name = f.name ∧ r.unit = f.unit ∧
      ∀ idx, InBounds r.shape idx →
        (r.matrix.at' idx).re = (if preserve then det idx else 1) * x idx ∧
        (r.matrix.at' idx).im = (if preserve then det idx else 1) * y idx := by
  obtain ⟨r, r1, r2, r3, r4, r5, r6⟩ := mapComplex_ok sample unwrap f hf newaxes T detFunc jacFunc "cartesian" preserve hp det
    hdet pos hpos _ _ rfl rfl x y hx hy _ (Or.inl ⟨rfl, rfl, rfl, rfl⟩)
  refine ⟨r, r1, r2, r3, r4, r5, fun idx hidx => ?_⟩
  rw [r6 idx hidx]
  cases preserve <;> simp

/-- The angles which are sampled in the polar modes. -/
def anglesOf (unwrap : Option (Arr ℝ → Arr ℝ)) (f : Field ℝ ℂ) (mode : String) : Arr ℝ :=
  if mode = "polar" then (match unwrap with
    | some u => u (Arr.each Complex.arg f.matrix)
    | none => Arr.each Complex.arg f.matrix) else Arr.each Complex.arg f.matrix

/-- C104, polar modes (`'polar'` is the default): moduli and angles are sampled, in mode `'polar'` after unwrapping the angles
if skimage is installed. The modulus of the result is the sampled modulus (times the determinant). -/
theorem map_complex_polar (sample : Arr ℝ → List ℝ → Res ℝ) (unwrap : Option (Arr ℝ → Arr ℝ))
    (hu : ∀ u, unwrap = some u → Unwraps u) (f : Field ℝ ℂ) (hf : f.Sound)
    (newaxes : List (Axis ℝ)) (T : Option (List ℝ → List ℝ)) (detFunc : Option (List ℝ → ℝ))
    (jacFunc : Option (List ℝ → ℕ → ℕ → ℝ)) (mode : String) (hmode : mode = "polar" ∨ mode = "polar-no-unwrap")
    (preserve : Bool) (hp : preserve = true → newaxes.length = f.shape.length) (det : List ℕ → ℝ)
    (hdet : preserve = true → determinant newaxes T detFunc jacFunc = .ok det)
    (pos : List ℕ → List ℝ) (hpos : ∀ idx, InBounds (newaxes.map Axis.len) idx → FoundAt f newaxes (T.getD id) idx (pos idx))
    (x y : List ℕ → ℝ)
    (hx : ∀ idx, InBounds (newaxes.map Axis.len) idx → sample (Arr.each (fun z => ‖z‖) f.matrix) (pos idx) = .ok (x idx))
    (hy : ∀ idx, InBounds (newaxes.map Axis.len) idx → sample (anglesOf unwrap f mode) (pos idx) = .ok (y idx)) :
    ∃ r, f.mapComplex sample unwrap newaxes T detFunc jacFunc mode preserve = .ok r ∧ r.axes = newaxes ∧
      r.shape = newaxes.map Axis.len ∧ r.name = f.name ∧ r.unit = f.unit ∧
      ∀ idx, InBounds r.shape idx →
        r.matrix.at' idx = (if preserve then det idx else 1 : ℝ) * (x idx * Complex.exp (Complex.I * y idx)) ∧
        ‖r.matrix.at' idx‖ = |(if preserve then det idx else 1) * x idx| := by
  have hsh : (anglesOf unwrap f mode).shape = f.shape := by
    unfold anglesOf
    split_ifs
    · cases hq : unwrap with
      | none => rfl
      | some u => exact (hu u hq _).1
    · rfl
  obtain ⟨r, r1, r2, r3, r4, r5, r6⟩ := mapComplex_ok sample unwrap f hf newaxes T detFunc jacFunc mode preserve hp det
    hdet pos hpos _ _ rfl hsh x y hx hy _ (Or.inr ⟨hmode, rfl, rfl, rfl⟩)
  have key : ∀ idx, InBounds r.shape idx →
      r.matrix.at' idx = (if preserve then det idx else 1 : ℝ) * (x idx * Complex.exp (Complex.I * y idx)) := by
    intro idx hidx
    rw [r6 idx hidx]
    cases preserve <;> simp
  refine ⟨r, r1, r2, r3, r4, r5, fun idx hidx => ⟨key idx hidx, ?_⟩⟩
  rw [key idx hidx, norm_mul, norm_mul, mul_comm Complex.I, Complex.norm_exp_ofReal_mul_I, mul_one, Complex.norm_real,
    Complex.norm_real, abs_mul, Real.norm_eq_abs, Real.norm_eq_abs]

/-- C104: other modes are refused for complex data, if the coordinates can be computed. -/
theorem map_complex_refused (sample : Arr ℝ → List ℝ → Res ℝ) (unwrap : Option (Arr ℝ → Arr ℝ)) (f : Field ℝ ℂ)
    (newaxes : List (Axis ℝ)) (T : Option (List ℝ → List ℝ)) (detFunc : Option (List ℝ → ℝ))
    (jacFunc : Option (List ℝ → ℕ → ℕ → ℝ)) (mode : String) (hmode : mode ∉ ["cartesian", "polar", "polar-no-unwrap"])
    (preserve : Bool) : f.mapComplex sample unwrap newaxes T detFunc jacFunc mode preserve = .error .valueError := by
  simp only [List.mem_cons, List.not_mem_nil, or_false, not_or] at hmode
  unfold Field.mapComplex
  by_cases hc : preserve = true ∧ (newaxes.length : ℤ) ≠ f.dims
  · rw [if_pos hc]
    rfl
  · simp only [if_neg hc, if_neg hmode.1, hmode.2.1, hmode.2.2, or_self, if_false]
    rfl

/-! ### On the grid -/

theorem turn_back (z : ℂ) (k : ℤ) :
    (‖z‖ : ℂ) * Complex.exp (Complex.I * ((z.arg + k * (2 * Real.pi) : ℝ) : ℂ)) = z := by
  have : Complex.I * ((z.arg + k * (2 * Real.pi) : ℝ) : ℂ) = z.arg * Complex.I + k * (2 * Real.pi * Complex.I) := by
    push_cast
    ring
  rw [this, Complex.exp_add, Complex.exp_int_mul_two_pi_mul_I, mul_one, Complex.norm_mul_exp_arg_mul_I]

theorem angles_mod (unwrap : Option (Arr ℝ → Arr ℝ)) (hu : ∀ u, unwrap = some u → Unwraps u) (f : Field ℝ ℂ) (mode : String)
    (idx : List ℕ) (hidx : InBounds f.shape idx) :
    ∃ k : ℤ, (anglesOf unwrap f mode).at' idx = (f.matrix.at' idx).arg + k * (2 * Real.pi) := by
  unfold anglesOf
  split_ifs
  · cases hq : unwrap with
    | none => exact ⟨0, by simp [Arr.each]⟩
    | some u => exact (hu u hq _).2 idx hidx
  · exact ⟨0, by simp [Arr.each]⟩

/-- C104: resampling a complex field on its own grid returns the same data, in each of the modes, if all axes have cells of equal
size or are not linear, and if the interpolation is exact at the points of the array (see `interp_linear_exact`). Missing: short
uneven axes, as in C60. -/
theorem map_complex_same_grid_partial (sample : Arr ℝ → List ℝ → Res ℝ)
    (hs : ∀ (a : Arr ℝ) (idx : List ℕ), InBounds a.shape idx → sample a (idx.map fun (i : ℕ) => (i : ℝ)) = .ok (a.at' idx))
    (unwrap : Option (Arr ℝ → Arr ℝ)) (hu : ∀ u, unwrap = some u → Unwraps u) (f : Field ℝ ℂ) (hf : f.Sound)
    (hax : ∀ ax ∈ f.axes, ax.isLinear = false ∨ ∃ e0 h : ℝ, h ≠ 0 ∧ EvenAxis ax e0 h)
    (mode : String) (hmode : mode ∈ ["cartesian", "polar", "polar-no-unwrap"]) (preserve : Bool) :
    ∃ r, f.mapComplex sample unwrap f.axes none none none mode preserve = .ok r ∧ r.matrix.Eqv f.matrix ∧
      r.axes = f.axes ∧ r.name = f.name ∧ r.unit = f.unit := by
  have hr : ∀ ax ∈ f.axes, Resolves ax := by
    intro ax hm
    rcases hax ax hm with h | ⟨e0, h, hh, he⟩
    · exact resolves_nonlinear (hf.valid ax hm) h
    · exact resolves_even he hh
  have hl : f.axes.map Axis.len = f.shape := hf.ok.lengths
  have hfound : ∀ idx, InBounds (f.axes.map Axis.len) idx →
      FoundAt f f.axes ((none : Option (List ℝ → List ℝ)).getD id) idx (idx.map fun (i : ℕ) => (i : ℝ)) := by
    intro idx hidx
    obtain ⟨g1, g2⟩ := gridPoint_get hidx
    have hlen := hidx.1
    rw [List.length_map] at hlen
    have hpt : List.Forall₂ (fun (p : Axis ℝ × ℕ) x => p.1.grid[p.2]? = some x) (f.axes.zip idx) (gridPoint f.axes idx) := by
      rw [List.forall₂_iff_get]
      refine ⟨by simp [g1, hlen], ?_⟩
      intro d h1 h2
      rw [List.length_zip, hlen, min_self] at h1
      obtain ⟨g, hg, hd⟩ := g2 d (idx[d]'(by omega)) f.axes[d] (List.getElem?_eq_getElem _)
        (List.getElem?_eq_getElem _)
      obtain ⟨_, hd'⟩ := List.getElem?_eq_some_iff.1 hd
      simp only [List.get_eq_getElem, List.getElem_zip, hd']
      exact hg
    refine ⟨gridPoint f.axes idx, hpt, ?_, ?_⟩
    · show (gridPoint f.axes idx).length = _
      rw [g1, ok_axes_length hf.ok]
    · rw [List.forall₂_iff_get]
      refine ⟨by simp [g1, hlen], ?_⟩
      intro d h1 h2
      simp only [List.length_map] at h2
      have h3 : d < f.axes.length := by omega
      obtain ⟨g, hg, hd⟩ := g2 d (idx[d]'h2) f.axes[d] (List.getElem?_eq_getElem _) (List.getElem?_eq_getElem _)
      obtain ⟨hd0, hd'⟩ := List.getElem?_eq_some_iff.1 hd
      simp only [List.get_eq_getElem, List.getElem_zip, List.getElem_map, Option.getD_none, id_eq, hd']
      exact hr _ (List.getElem_mem _) _ _ hg
  have hpl : preserve = true → f.axes.length = f.shape.length := fun _ => ok_axes_length hf.ok
  have hdet : preserve = true → determinant f.axes none none none = .ok fun _ => 1 := fun _ => rfl
  have hin : ∀ {idx}, InBounds (f.axes.map Axis.len) idx → InBounds f.shape idx := by
    intro idx h
    rw [← hl]
    exact h
  simp only [List.mem_cons, List.not_mem_nil, or_false] at hmode
  by_cases hm : mode = "cartesian"
  · subst hm
    obtain ⟨r, r1, r2, r3, r4, r5, r6⟩ := map_complex_cartesian sample unwrap f hf f.axes none none none preserve hpl
      (fun _ => 1) hdet _ hfound (fun idx => (f.matrix.at' idx).re) (fun idx => (f.matrix.at' idx).im)
      (fun idx hidx => hs _ _ (hin hidx)) (fun idx hidx => hs _ _ (hin hidx))
    refine ⟨r, r1, ⟨r3.trans hl, fun idx hidx => ?_⟩, r2, r4, r5⟩
    obtain ⟨q1, q2⟩ := r6 idx hidx
    apply Complex.ext
    · rw [q1]
      cases preserve <;> simp
    · rw [q2]
      cases preserve <;> simp
  · have hm' : mode = "polar" ∨ mode = "polar-no-unwrap" := by tauto
    have hsh : (anglesOf unwrap f mode).shape = f.shape := by
      unfold anglesOf
      split_ifs
      · cases hq : unwrap with
        | none => rfl
        | some u => exact (hu u hq _).1
      · rfl
    obtain ⟨r, r1, r2, r3, r4, r5, r6⟩ := map_complex_polar sample unwrap hu f hf f.axes none none none mode hm' preserve hpl
      (fun _ => 1) hdet _ hfound (fun idx => ‖f.matrix.at' idx‖) (fun idx => (anglesOf unwrap f mode).at' idx)
      (fun idx hidx => hs _ _ (hin hidx)) (fun idx hidx => hs _ _ (by rw [hsh]; exact hin hidx))
    refine ⟨r, r1, ⟨r3.trans hl, fun idx hidx => ?_⟩, r2, r4, r5⟩
    obtain ⟨q1, _⟩ := r6 idx hidx
    obtain ⟨k, hk⟩ := angles_mod unwrap hu f mode idx (hin (by rw [← r3]; exact hidx))
    rw [q1, hk, turn_back]
    cases preserve <;> simp

/-! ### The numerical Jacobian -/

theorem gradient_line {x : List ℝ} (hn : x.Nodup) (h2 : 2 ≤ x.length) (y : ℕ → ℝ) (p q : ℝ)
    (hy : ∀ k < x.length, y k = p + x.getD k 0 * q) {i : ℕ} (hi : i < x.length) : gradientAt x y x.length i = q := by
  have hv : ∀ k < x.length, y k = (⟨p, q, 0⟩ : Parabola ℝ).value (x.getD k 0) := by
    intro k hk
    rw [hy k hk]
    simp [Parabola.value]
  by_cases h0 : i = 0
  · subst h0
    rw [gradient_first hn h2 y ⟨p, q, 0⟩ (hv 0 (by omega)) (hv 1 (by omega))]
    simp
  · by_cases h1 : i = x.length - 1
    · subst h1
      rw [gradient_last hn h2 y ⟨p, q, 0⟩ (hv _ (by omega)) (hv _ (by omega))]
      simp
    · obtain ⟨k, rfl⟩ : ∃ k, i = k + 1 := ⟨i - 1, by omega⟩
      rw [gradient_inner hn (by omega) y ⟨p, q, 0⟩ (hv _ (by omega)) (hv _ (by omega)) (hv _ (by omega))]
      simp [Parabola.slope]

theorem gridPoint_set (newaxes : List (Axis ℝ)) (idx : List ℕ) (hl : idx.length = newaxes.length) (j k l : ℕ)
    (hj : j < newaxes.length) :
    (gridPoint newaxes (idx.set j k)).getD l 0 =
      if l = j then ((newaxes.map (·.grid)).getD j []).getD k 0 else (gridPoint newaxes idx).getD l 0 := by
  unfold gridPoint
  by_cases h : l = j
  · subst h
    simp [List.getD_eq_getElem?_getD, List.getElem?_zipWith, hl, hj]
  · rw [if_neg h]
    simp [List.getD_eq_getElem?_getD, List.getElem?_zipWith, List.getElem?_set_ne (Ne.symm h)]

theorem approx_affine (newaxes : List (Axis ℝ))
    (hax : ∀ ax ∈ newaxes, ValidAxis ax.gridNode ax.grid ax.extent ∧ 2 ≤ ax.len) (T : List ℝ → List ℝ)
    (A : Matrix (Fin newaxes.length) (Fin newaxes.length) ℝ) (b : Fin newaxes.length → ℝ) (hT : Affine T A b)
    (idx : List ℕ) (hidx : InBounds (newaxes.map Axis.len) idx) (i j : Fin newaxes.length) :
    approxJacobian newaxes T idx i j = A i j := by
  have hl := hidx.1
  rw [List.length_map] at hl
  unfold approxJacobian
  simp only
  set x := (newaxes.map (·.grid)).getD j [] with hx
  have hxj : x = newaxes[j].grid := by
    rw [hx, List.getD_eq_getElem?_getD, List.getElem?_map, List.getElem?_eq_getElem j.2]
    rfl
  obtain ⟨v1, v2⟩ := hax _ (List.getElem_mem j.2)
  have hn : x.Nodup := by
    rw [hxj]
    exact grid_nodup v1
  have h2 : 2 ≤ x.length := by
    rw [hxj]
    exact v2
  have hij : idx.getD j 0 < x.length := by
    have h3 := hidx.2 j (idx[j.1]'(by omega)) newaxes[j].len (List.getElem?_eq_getElem _)
      (by rw [List.getElem?_map, List.getElem?_eq_getElem j.2]; rfl)
    rw [List.getD_eq_getElem _ _ (by omega), hxj]
    exact h3
  apply gradient_line hn h2 _ (∑ l ∈ Finset.univ.erase j, A i l * (gridPoint newaxes idx).getD l 0 + b i) _ _ hij
  intro k hk
  have hlen : (gridPoint newaxes (idx.set j k)).length = newaxes.length := by
    simp [gridPoint, hl]
  rw [(hT _ hlen).2 i, ← Finset.sum_erase_add _ _ (Finset.mem_univ j), gridPoint_set newaxes idx hl j k j j.2, if_pos rfl]
  have : ∀ l ∈ Finset.univ.erase j, A i l * (gridPoint newaxes (idx.set j k)).getD l 0 =
      A i l * (gridPoint newaxes idx).getD l 0 := by
    intro l hm
    rw [gridPoint_set newaxes idx hl j k l j.2, if_neg]
    exact fun h => (Finset.mem_erase.1 hm).1 (Fin.ext h)
  rw [Finset.sum_congr rfl this]
  ring

/-- C104: if the transform is `x = A u + b`, then the determinant which is used when the caller gives none is `|det A|` at every
point of the new grid, for any number of dimensions and for axes with any spacing, if each has two points at least. -/
theorem map_complex_affine_jacobian (newaxes : List (Axis ℝ))
    (hax : ∀ ax ∈ newaxes, ValidAxis ax.gridNode ax.grid ax.extent ∧ 2 ≤ ax.len) (T : List ℝ → List ℝ)
    (A : Matrix (Fin newaxes.length) (Fin newaxes.length) ℝ) (b : Fin newaxes.length → ℝ) (hT : Affine T A b) :
    ∃ det, determinant newaxes (some T) none none = .ok det ∧
      ∀ idx, InBounds (newaxes.map Axis.len) idx → det idx = |A.det| := by
  have hany : ¬ (newaxes.any fun ax => decide (ax.grid.length < 2)) = true := by
    simp only [List.any_eq_true, decide_eq_true_eq, not_exists, not_and, not_lt]
    exact fun ax hm => (hax ax hm).2
  refine ⟨fun idx => jacDet newaxes.length (approxJacobian newaxes T idx), ?_, ?_⟩
  · simp only [determinant, if_neg hany]
  · intro idx hidx
    have key : Matrix.of (fun i j : Fin newaxes.length => approxJacobian newaxes T idx i j) = A := by
      ext i j
      exact approx_affine newaxes hax T A b hT idx hidx i j
    simp only [jacDet, key]

/-- C104: the integral cannot be preserved with the default Jacobian on a new grid with a single point along some axis: there is
no result. -/
theorem map_complex_single_point (sample : Arr ℝ → List ℝ → Res ℝ) (unwrap : Option (Arr ℝ → Arr ℝ)) (f : Field ℝ ℂ)
    (newaxes : List (Axis ℝ)) (T : List ℝ → List ℝ) (mode : String) (h : ∃ ax ∈ newaxes, ax.len < 2) (r : Field ℝ ℂ) :
    f.mapComplex sample unwrap newaxes (some T) none none mode true ≠ .ok r := by
  have hd : determinant newaxes (some T) none none = .error .valueError := by
    have hany : (newaxes.any fun ax => decide (ax.grid.length < 2)) = true := by
      simpa [List.any_eq_true, Axis.len] using h
    simp only [determinant, if_pos hany]
  intro hr
  unfold Field.mapComplex at hr
  simp only [hd, bind, Except.bind, pure, Except.pure, if_true, throw, throwThe, MonadExceptOf.throw] at hr
  repeat' split at hr
  all_goals cases hr

/-! ### The branch cut -/

/-- Two values on either side of the negative real axis, `e^{± i (π - δ)}`. -/
def fieldCut (δ : ℝ) : Field ℝ ℂ :=
  ⟨"f", "V", ⟨[2], fun idx => if idx.getD 0 0 = 0 then Complex.exp ((Real.pi - δ : ℝ) * Complex.I)
    else Complex.exp ((-(Real.pi - δ) : ℝ) * Complex.I)⟩, [evenAxisOf "x" "m" 0 1 2], [some false], [none]⟩

/-- The axis with one point in the middle between the two points. -/
def axisBetween : Axis ℝ := evenAxisOf "x" "m" (1 / 2) 1 1

theorem fieldCut_sound (δ : ℝ) : (fieldCut δ).Sound := by
  refine ⟨⟨?_, rfl, rfl⟩, ?_, by simp [fieldCut, Field.shape]⟩
  · simp [fieldCut, Axis.len, evenAxisOf, ap_length, Field.shape]
  · intro ax hax
    simp only [fieldCut, List.mem_cons, List.not_mem_nil, or_false] at hax
    subst hax
    exact evenAxisOf_valid _ _ _ _ (by norm_num) _

theorem between_grid : axisBetween.grid = [1] := by
  simp [axisBetween, evenAxisOf, ap]
  norm_num

theorem between_found (δ : ℝ) (idx : List ℕ) (hidx : InBounds ([axisBetween].map Axis.len) idx) :
    FoundAt (fieldCut δ) [axisBetween] id idx [1 / 2] := by
  have hl : idx.length = 1 := by simpa using hidx.1
  match idx, hl with
  | [i], _ =>
    have hi := hidx.2 0 i axisBetween.len rfl rfl
    have hlen : axisBetween.len = 1 := by simp [Axis.len, between_grid]
    rw [hlen] at hi
    obtain rfl : i = 0 := by omega
    refine ⟨[1], ?_, rfl, ?_⟩
    · simp [between_grid]
    · refine List.Forall₂.cons ?_ List.Forall₂.nil
      rw [even_index (evenAxisOf_even "x" "m" (0 : ℝ) 1 2) one_ne_zero (by simp [Axis.len, evenAxisOf, ap_length])]
      norm_num

/-- Linear interpolation in the middle of two values. -/
theorem middle (a : Arr ℝ) (ha : a.shape = [2]) :
    Interp.interp linearWeights 1 .constant 0 a [1 / 2] = .ok ((a.at' [0] + a.at' [1]) / 2) := by
  have hf : Int.fract (1 / 2 : ℝ) = 1 / 2 := by
    rw [Int.fract_eq_iff]
    exact ⟨by norm_num, by norm_num, 0, by norm_num⟩
  have hfl : ⌊(1 / 2 : ℝ)⌋ = 0 := by
    rw [Int.floor_eq_iff]
    norm_num
  rw [(interp_linear a 0 [1 / 2] (by rw [ha]; rfl)).1]
  · simp only [multilinear, hf, hfl, Int.toNat_zero]
    congr 1
    norm_num
    ring
  · rw [ha]
    refine List.Forall₂.cons ?_ List.Forall₂.nil
    simp only [Interp.Inside]
    norm_num

theorem near_minus_one (δ : ℝ) (hδ : 0 < δ) :
    ‖Complex.exp ((Real.pi - δ : ℝ) * Complex.I) + 1‖ ≤ δ ∧ ‖Complex.exp ((-(Real.pi - δ) : ℝ) * Complex.I) + 1‖ ≤ δ := by
  have e1 : Complex.exp ((Real.pi - δ : ℝ) * Complex.I) = -Complex.exp (Complex.I * ((-δ : ℝ) : ℂ)) := by
    have : ((Real.pi - δ : ℝ) : ℂ) * Complex.I = Real.pi * Complex.I + Complex.I * ((-δ : ℝ) : ℂ) := by
      push_cast
      ring
    rw [this, Complex.exp_add, Complex.exp_pi_mul_I, neg_one_mul]
  have e2 : Complex.exp ((-(Real.pi - δ) : ℝ) * Complex.I) = -Complex.exp (Complex.I * (δ : ℂ)) := by
    have : ((-(Real.pi - δ) : ℝ) : ℂ) * Complex.I = -(Real.pi * Complex.I) + Complex.I * (δ : ℂ) := by
      push_cast
      ring
    rw [this, Complex.exp_add, Complex.exp_neg, Complex.exp_pi_mul_I]
    norm_num
  refine ⟨?_, ?_⟩
  · rw [e1, neg_add_eq_sub, norm_sub_rev]
    refine (Real.norm_exp_I_mul_ofReal_sub_one_le).trans ?_
    rw [norm_neg, Real.norm_eq_abs, abs_of_pos hδ]
  · rw [e2, neg_add_eq_sub, norm_sub_rev]
    refine (Real.norm_exp_I_mul_ofReal_sub_one_le).trans ?_
    rw [Real.norm_eq_abs, abs_of_pos hδ]

theorem arg_exp (θ : ℝ) (h1 : -Real.pi < θ) (h2 : θ ≤ Real.pi) : (Complex.exp (θ * Complex.I)).arg = θ := by
  rw [Complex.arg_exp_mul_I, toIocMod_eq_self]
  constructor
  · exact h1
  · linarith

/-- C104, violated without unwrapping: in mode `'polar-no-unwrap'`, and in the default mode if skimage is not installed, two
values which are as close to -1 as one likes have the value 1 in the middle between them. -/
theorem map_complex_cut_violated (mode : String) (hmode : mode = "polar" ∨ mode = "polar-no-unwrap") (δ : ℝ) (h0 : 0 < δ)
    (h1 : δ < Real.pi) :
    (fieldCut δ).Sound ∧ (∀ idx, InBounds (fieldCut δ).shape idx → ‖(fieldCut δ).matrix.at' idx - (-1)‖ ≤ δ) ∧
    ∃ r, (fieldCut δ).mapComplex (Interp.interp linearWeights 1 .constant 0) none [axisBetween] none none none mode true = .ok r ∧
      r.matrix.at' [0] = 1 := by
  obtain ⟨n1, n2⟩ := near_minus_one δ h0
  refine ⟨fieldCut_sound δ, ?_, ?_⟩
  · intro idx _
    rw [sub_neg_eq_add]
    simp only [fieldCut]
    split_ifs
    · exact n1
    · exact n2
  · have hang : anglesOf none (fieldCut δ) mode = Arr.each Complex.arg (fieldCut δ).matrix := by
      unfold anglesOf
      split_ifs <;> rfl
    have hlen : axisBetween.len = 1 := by simp [Axis.len, between_grid]
    obtain ⟨r, r1, _, r3, _, _, r6⟩ := map_complex_polar (Interp.interp linearWeights 1 .constant 0) none (by simp) (fieldCut δ)
      (fieldCut_sound δ) [axisBetween] none none none mode hmode true (fun _ => rfl) (fun _ => 1) (fun _ => rfl)
      (fun _ => [1 / 2]) (fun idx hidx => between_found δ idx hidx) (fun _ => 1) (fun _ => 0) (by
        intro idx _
        rw [middle _ rfl]
        simp only [Arr.each, fieldCut, List.getD_cons_zero, if_true, one_ne_zero, if_false, Complex.norm_exp_ofReal_mul_I]
        norm_num) (by
        intro idx _
        rw [hang, middle _ rfl]
        simp only [Arr.each, fieldCut, List.getD_cons_zero, if_true, one_ne_zero, if_false]
        rw [arg_exp _ (by linarith) (by linarith), arg_exp _ (by linarith) (by linarith)]
        norm_num)
    refine ⟨r, r1, ?_⟩
    have hin : InBounds r.shape [0] := by
      rw [r3]
      exact inBounds_cons.2 ⟨by rw [hlen]; exact one_pos, ⟨rfl, by simp⟩⟩
    rw [(r6 _ hin).1]
    simp

/-- Unwrapping: negative angles are increased by one turn. -/
def unwrapUp (a : Arr ℝ) : Arr ℝ := ⟨a.shape, fun idx => if a.at' idx < 0 then a.at' idx + 2 * Real.pi else a.at' idx⟩

theorem unwrapUp_unwraps : Unwraps unwrapUp := by
  refine fun a => ⟨rfl, fun idx _ => ?_⟩
  by_cases h : a.at' idx < 0
  · exact ⟨1, by simp [unwrapUp, h]⟩
  · exact ⟨0, by simp [unwrapUp, h]⟩

/-- With this unwrapping the value in the middle is -1; in mode `'cartesian'` it is the mean value. -/
example (δ : ℝ) (h0 : 0 < δ) (h1 : δ < Real.pi) :
    (∃ r, (fieldCut δ).mapComplex (Interp.interp linearWeights 1 .constant 0) (some unwrapUp) [axisBetween] none none none "polar"
      true = .ok r ∧ r.matrix.at' [0] = -1) ∧
    ∃ r, (fieldCut δ).mapComplex (Interp.interp linearWeights 1 .constant 0) none [axisBetween] none none none "cartesian"
      true = .ok r ∧ r.matrix.at' [0] = ((-Real.cos δ : ℝ) : ℂ) := by
  have hlen : axisBetween.len = 1 := by simp [Axis.len, between_grid]
  have hin : InBounds ([axisBetween].map Axis.len) [0] :=
    inBounds_cons.2 ⟨by rw [hlen]; exact one_pos, ⟨rfl, by simp⟩⟩
  constructor
  · obtain ⟨r, r1, _, r3, _, _, r6⟩ := map_complex_polar (Interp.interp linearWeights 1 .constant 0) (some unwrapUp)
      (by rintro u ⟨rfl⟩; exact unwrapUp_unwraps) (fieldCut δ)
      (fieldCut_sound δ) [axisBetween] none none none "polar" (Or.inl rfl) true (fun _ => rfl) (fun _ => 1) (fun _ => rfl)
      (fun _ => [1 / 2]) (fun idx hidx => between_found δ idx hidx) (fun _ => 1) (fun _ => Real.pi) (by
        intro idx _
        rw [middle _ rfl]
        simp only [Arr.each, fieldCut, List.getD_cons_zero, if_true, one_ne_zero, if_false, Complex.norm_exp_ofReal_mul_I]
        norm_num) (by
        intro idx _
        rw [middle _ rfl]
        simp only [anglesOf, unwrapUp, Arr.each, fieldCut, List.getD_cons_zero, if_true, one_ne_zero, if_false]
        rw [arg_exp _ (by linarith) (by linarith), arg_exp _ (by linarith) (by linarith), if_neg (by linarith),
          if_pos (by linarith)]
        congr 1
        ring)
    refine ⟨r, r1, ?_⟩
    rw [(r6 _ (by rw [r3]; exact hin)).1, mul_comm Complex.I, Complex.exp_pi_mul_I]
    simp
  · obtain ⟨r, r1, _, r3, _, _, r6⟩ := map_complex_cartesian (Interp.interp linearWeights 1 .constant 0) none (fieldCut δ)
      (fieldCut_sound δ) [axisBetween] none none none true (fun _ => rfl) (fun _ => 1) (fun _ => rfl)
      (fun _ => [1 / 2]) (fun idx hidx => between_found δ idx hidx) (fun _ => -Real.cos δ) (fun _ => 0) (by
        intro idx _
        rw [middle _ rfl]
        simp only [Arr.each, fieldCut, List.getD_cons_zero, if_true, one_ne_zero, if_false, Complex.exp_ofReal_mul_I_re,
          Real.cos_neg, Real.cos_pi_sub]
        congr 1
        ring) (by
        intro idx _
        rw [middle _ rfl]
        simp only [Arr.each, fieldCut, List.getD_cons_zero, if_true, one_ne_zero, if_false, Complex.exp_ofReal_mul_I_im,
          Real.sin_neg, Real.sin_pi_sub]
        congr 1
        ring)
    refine ⟨r, r1, ?_⟩
    obtain ⟨q1, q2⟩ := r6 _ (by rw [r3]; exact hin)
    apply Complex.ext
    · rw [q1, Complex.ofReal_re, if_pos rfl, one_mul]
    · rw [q2, Complex.ofReal_im, mul_zero]

/-- The hypotheses of `map_complex_same_grid_partial` with linear interpolation. -/
example (δ : ℝ) (mode : String) (hmode : mode ∈ ["cartesian", "polar", "polar-no-unwrap"]) :
    ∃ r, (fieldCut δ).mapComplex (Interp.interp linearWeights 1 .constant 0) (some unwrapUp) (fieldCut δ).axes none none none mode
      true = .ok r ∧ r.matrix.Eqv (fieldCut δ).matrix := by
  obtain ⟨r, h1, h2, _⟩ := map_complex_same_grid_partial (Interp.interp linearWeights 1 .constant 0)
    (fun a idx h => interp_linear_exact a 0 _ idx h) (some unwrapUp) (by rintro u ⟨rfl⟩; exact unwrapUp_unwraps) (fieldCut δ)
    (fieldCut_sound δ) (by
      intro ax hax
      simp only [fieldCut, List.mem_cons, List.not_mem_nil, or_false] at hax
      subst hax
      exact Or.inr ⟨0, 1, one_ne_zero, evenAxisOf_even _ _ _ _ _⟩) mode hmode true
  exact ⟨r, h1, h2⟩

/-- A linear transform of two coordinates with the determinant -7. -/
example : ∃ det, determinant fieldPolar.axes (some fun u => [2 * u.getD 0 0 + u.getD 1 0 + 1, u.getD 0 0 - 3 * u.getD 1 0])
    none none = .ok det ∧ ∀ idx, InBounds (fieldPolar.axes.map Axis.len) idx → det idx = 7 := by
  obtain ⟨det, h1, h2⟩ := map_complex_affine_jacobian fieldPolar.axes (by
      intro ax hax
      simp only [fieldPolar, List.mem_cons, List.not_mem_nil, or_false] at hax
      rcases hax with rfl | rfl
      · exact ⟨evenAxisOf_valid _ _ _ _ (by norm_num) _, by simp [Axis.len, evenAxisOf, ap_length]⟩
      · exact ⟨evenAxisOf_valid _ _ _ _ (by norm_num) _, by simp [Axis.len, evenAxisOf, ap_length]⟩)
    (fun u => [2 * u.getD 0 0 + u.getD 1 0 + 1, u.getD 0 0 - 3 * u.getD 1 0])
    (!![2, 1; 1, -3] : Matrix (Fin 2) (Fin 2) ℝ) (![1, 0] : Fin 2 → ℝ) (by
      intro u hu
      refine ⟨rfl, fun i => ?_⟩
      have h : ∀ i : Fin 2, [2 * u.getD 0 0 + u.getD 1 0 + 1, u.getD 0 0 - 3 * u.getD 1 0].getD i 0 =
          ∑ j : Fin 2, !![2, 1; 1, -3] i j * u.getD j 0 + ![1, 0] i := by
        intro i
        fin_cases i
        · simp [Fin.sum_univ_two]
        · simp [Fin.sum_univ_two]
          ring
      exact h i)
  refine ⟨det, h1, fun idx hidx => ?_⟩
  have hd : (!![2, 1; 1, -3] : Matrix (Fin 2) (Fin 2) ℝ).det = -7 := by
    rw [Matrix.det_fin_two_of]
    norm_num
  refine (h2 idx hidx).trans ?_
  refine (congrArg abs hd).trans ?_
  norm_num

/-- The new axis with one point, as in `map_complex_single_point`. -/
example : ∃ ax ∈ [axisBetween], ax.len < 2 := ⟨axisBetween, by simp, by simp [Axis.len, between_grid]⟩

end

end Postpic.Props
