import Verif.Lemmas.Waves
import Verif.Model.StaggerFourier
import Verif.Props.Stagger
import Verif.Props.FieldProps

/-!
# C109: shifts interpolate with plane waves
-/

set_option autoImplicit false

namespace Postpic.Props

open Postpic Postpic.Axes Postpic.Fields Postpic.Spec

noncomputable section

/-- C109: every field is, on its grid, the superposition of waves which the grid resolves, and the field shifted with the fourier method has
the values of the same superposition at the shifted grid points. The field can be given as any such superposition. Partial: fields in the
spatial domain, increasing axes with at least two points among the first three dimensions. -/
theorem shift_waves_partial (spl : Splines ℝ) (hspl : ExactOnEven spl) (f : Field ℝ ℂ) (hf : f.Sound)
    (L : List ℕ) (hnd : L.Nodup) (e0 h : ℕ → ℝ) (hL : Transformable f L false e0 h)
    (σ : ℕ → ℝ) :
    ∃ r, f.shiftGridBy spl (L.map fun (d : ℕ) => ((d : ℤ), σ d)) = .ok r ∧ r.Sound ∧ r.shape = f.shape ∧ r.ats = f.ats ∧
      (∀ d ∈ L, resolved r h d = resolved f h d) ∧
      (∀ d ∈ L, ∃ ax, r.axes[d]? = some ax ∧ EvenAxis ax (e0 d + σ d) (h d)) ∧
      (∀ idx, InBounds f.shape idx → ∀ d ∈ L, coordAt r.axes idx d = coordAt f.axes idx d + σ d) ∧
      (∃ A, ∀ idx, InBounds f.shape idx →
        f.matrix.at' idx = wavesAt (resolved f h) (coordAt f.axes idx) L A idx) ∧
      ∀ A, (∀ idx, InBounds f.shape idx →
          f.matrix.at' idx = wavesAt (resolved f h) (coordAt f.axes idx) L A idx) →
        ∀ idx, InBounds f.shape idx →
          r.matrix.at' idx = wavesAt (resolved f h) (coordAt r.axes idx) L A idx := by
  obtain ⟨r, n, k0, R1, R2, R3, R4, R5, R6, R7, R8, R9, R10, R11, R12⟩ := shift_eq hspl hf hL hnd σ
  have hlen := ok_axes_length hf.ok
  set κ : ℕ → List ℝ := resolved f h with hκ
  have hn : ∀ d ∈ L, f.shape.getD d 0 = n d := fun d hd => by
    rw [List.getD_eq_getElem?_getD, (R10 d hd).1]; rfl
  have hκe : ∀ d ∈ L, ap (k0 d) (2 * Real.pi / (n d * h d)) (n d) = κ d := by
    intro d hd
    have hd' : f.tao[d]? = some (f.tao.getD d none) := by
      have hlt : d < f.tao.length := by
        rw [hf.ok.origins]
        exact (List.getElem?_eq_some_iff.1 (R10 d hd).1).1
      rw [List.getD_eq_getElem?_getD, List.getElem?_eq_getElem hlt]
      rfl
    rw [hκ, R9 d hd _ hd']
    simp only [resolved, waveNumbers, hn d hd, firstK]
    rfl
  have hκr : ∀ d ∈ L, resolved r h d = κ d := by
    intro d hd
    rw [← hκe d hd]
    simp only [resolved, waveNumbers]
    rw [List.getD_eq_getElem?_getD, R8 d hd, R5, hn d hd]
    rfl
  -- the coordinates
  have gf : ∀ d ∈ L, gridAlong f d = ap (e0 d + h d / 2) (h d) (n d) := by
    intro d hd
    obtain ⟨ax, h1, h2⟩ := hL.axis d hd
    have hs : f.shape[d]? = some ax.len := by rw [← hf.ok.lengths, List.getElem?_map, h1]; rfl
    have hl : ax.len = n d := by rw [(R10 d hd).1] at hs; exact (Option.some.inj hs).symm
    rw [gridAlong_eq h1, (even_iff.1 h2).2.1, hl]
  have gr : ∀ d ∈ L, gridAlong r d = ap (e0 d + h d / 2 + σ d) (h d) (n d) := by
    intro d hd
    obtain ⟨ax, h1, h2⟩ := hL.axis d hd
    have hs : f.shape[d]? = some ax.len := by rw [← hf.ok.lengths, List.getElem?_map, h1]; rfl
    have hl : ax.len = n d := by rw [(R10 d hd).1] at hs; exact (Option.some.inj hs).symm
    obtain ⟨ax', c1, c2, c3, c4, c5⟩ := R11 d hd ax h1
    rw [gridAlong_eq c1, (even_iff.1 c5).2.1, c4, hl]
    congr 1
    ring
  have hb : ∀ idx, InBounds f.shape idx → ∀ d ∈ L, d < idx.length ∧ idx.getD d 0 < n d := by
    intro idx hidx d hd
    have hlt : d < idx.length := by rw [hidx.1]; exact (List.getElem?_eq_some_iff.1 (R10 d hd).1).1
    refine ⟨hlt, ?_⟩
    rw [List.getD_eq_getElem?_getD, List.getElem?_eq_getElem hlt]
    exact hidx.2 d _ _ (List.getElem?_eq_getElem hlt) (R10 d hd).1
  -- the transforms
  set back : (ℕ → ℝ) → (List ℕ → ℂ) → List ℕ → ℂ := fun x g =>
    (order L).foldl (fun g d => fourierAlong (2 * Real.pi / (n d * h d) / Real.sqrt (2 * Real.pi)) 1
      (ap (k0 d) (2 * Real.pi / (n d * h d)) (n d)) (ap (x d) (h d) (n d)) d g) g with hback
  set forth : (List ℕ → ℂ) → List ℕ → ℂ := fun g =>
    (order L).foldl (fun g d => fourierAlong (h d / Real.sqrt (2 * Real.pi)) (-1)
      (ap (e0 d + h d / 2) (h d) (n d)) (ap (k0 d) (2 * Real.pi / (n d * h d)) (n d)) d g) g with hforth
  set C : ℝ := (L.map fun d => 2 * Real.pi / (n d * h d) / Real.sqrt (2 * Real.pi)).prod with hC
  have hC0 : (C : ℂ) ≠ 0 := by
    rw [Complex.ofReal_ne_zero, hC]
    apply List.prod_ne_zero
    intro h0
    obtain ⟨d, hd, h1⟩ := List.mem_map.1 h0
    have h2 : (0 : ℝ) < n d := by exact_mod_cast (R10 d hd).2.1
    have h3 := hL.pos d hd
    have h4 : 0 < 2 * Real.pi / (n d * h d) / Real.sqrt (2 * Real.pi) := by positivity
    exact h4.ne' h1
  have hwaves : ∀ (x : ℕ → ℝ) (A : List ℕ → ℂ) (idx : List ℕ), InBounds f.shape idx →
      back x A idx = wavesAt κ (fun d => (ap (x d) (h d) (n d)).getD (idx.getD d 0) 0) L (fun i => C * A i) idx := by
    intro x A idx hidx
    have hperm : (order L).Perm L.reverse := order_perm (List.nodup_reverse.2 hnd) fun d => by simp
    simp only [hback]
    rw [fold_perm (fun d g => fourierAlong (2 * Real.pi / (n d * h d) / Real.sqrt (2 * Real.pi)) 1
        (ap (k0 d) (2 * Real.pi / (n d * h d)) (n d)) (ap (x d) (h d) (n d)) d g)
      (fun d e hde g => fourierAlong_comm _ _ _ _ _ _ _ _ _ _ hde g) hperm,
      fold_waves _ _ _ L hnd A idx fun d hd => (hb idx hidx d hd).1]
    exact wavesAt_kappa hκe _ _
  have hcoordf : ∀ idx (A : List ℕ → ℂ), wavesAt κ (coordAt f.axes idx) L A idx =
      wavesAt κ (fun d => (ap (e0 d + h d / 2) (h d) (n d)).getD (idx.getD d 0) 0) L A idx := fun idx A =>
    wavesAt_congr (fun d hd => by
      change (gridAlong f d).getD _ 0 = _
      rw [gf d hd]) A idx
  have hcoordr : ∀ idx (A : List ℕ → ℂ), wavesAt κ (coordAt r.axes idx) L A idx =
      wavesAt κ (fun d => (ap (e0 d + h d / 2 + σ d) (h d) (n d)).getD (idx.getD d 0) 0) L A idx := fun idx A =>
    wavesAt_congr (fun d hd => by
      change (gridAlong r d).getD _ 0 = _
      rw [gr d hd]) A idx
  have hsign : expSign false "spatial" = -1 := by simp [expSign]
  have hr : ∀ idx, InBounds f.shape idx → r.matrix.at' idx = back (fun d => e0 d + h d / 2 + σ d) (forth f.matrix.at') idx := by
    intro idx hidx
    rw [R12 idx hidx]
    simp only [hsign, neg_neg, hback, hforth]
  refine ⟨r, R1, R2, R5, R6, hκr, ?_, ?_, ⟨fun i => C * forth f.matrix.at' i, ?_⟩, ?_⟩
  · intro d hd
    obtain ⟨ax, h1, h2⟩ := hL.axis d hd
    obtain ⟨ax', c1, c2, c3, c4, c5⟩ := R11 d hd ax h1
    exact ⟨ax', c1, c5⟩
  · intro idx hidx d hd
    have hj := (hb idx hidx d hd).2
    change (gridAlong r d).getD _ 0 = (gridAlong f d).getD _ 0 + _
    rw [gr d hd, gf d hd]
    generalize idx.getD d 0 = j at hj
    rw [List.getD_eq_getElem?_getD, List.getD_eq_getElem?_getD, ap_get _ _ _ _ hj, ap_get _ _ _ _ hj]
    simp only [Option.getD_some]
    ring
  · intro idx hidx
    rw [hcoordf, ← hwaves (fun d => e0 d + h d / 2) _ idx hidx]
    have := fold_inverse (shape := f.shape) (order L) (order_nodup L) n h
      (fun d => 2 * Real.pi / (n d * h d)) (fun d => e0 d + h d / 2) k0 (-1) (Or.inr rfl)
      (fun d hd => R10 d (mem_order.1 hd)) f.matrix.at' idx hidx
    rw [neg_neg] at this
    exact this.symm
  · intro A hA idx hidx
    set B : List ℕ → ℂ := fun i => A i / C with hB
    have hCB : (fun i => (C : ℂ) * B i) = A := by
      funext i
      rw [hB]
      exact mul_div_cancel₀ _ hC0
    have hfB : ∀ idx, InBounds f.shape idx → f.matrix.at' idx = back (fun d => e0 d + h d / 2) B idx := by
      intro idx hidx
      rw [hA idx hidx, hcoordf, hwaves _ _ _ hidx, hCB]
    have hforthB : ∀ idx, InBounds f.shape idx → forth f.matrix.at' idx = B idx := by
      intro idx hidx
      have hinv := fold_inverse (shape := f.shape) (order L) (order_nodup L) n
        (fun d => 2 * Real.pi / (n d * h d)) h k0 (fun d => e0 d + h d / 2) 1 (Or.inl rfl)
        (fun d hd => by
          obtain ⟨a1, a2, a3⟩ := R10 d (mem_order.1 hd)
          exact ⟨a1, a2, by linarith⟩) B idx hidx
      rw [← hinv]
      refine foldl_congr_on (shape := f.shape) (order L) _ _ ?_ _ _ hfB idx hidx
      intro d hd g g' hg idx hidx
      exact fourierAlong_congr (R10 d (mem_order.1 hd)).1 _ _ _ _ (ap_length _ _ _) hg idx hidx
    rw [hr idx hidx, hcoordr, ← hCB, ← hwaves _ B idx hidx]
    refine foldl_congr_on (shape := f.shape) (order L) _ _ ?_ _ _ hforthB idx hidx
    intro d hd g g' hg idx hidx
    exact fourierAlong_congr (R10 d (mem_order.1 hd)).1 _ _ _ _ (ap_length _ _ _) hg idx hidx

/-! ### Fields on staggered grids -/

/-- The field `r` is the field `f` moved to the common origin, or `f` itself if it is already there up to the tolerance of `np.isclose`. It has
the same cells and resolves the same waves, and its values are those of the waves. -/
def WavesMovedTo (D : ℕ) (h o : ℕ → ℝ) (f r : Field ℝ ℝ) : Prop :=
  r.shape = f.shape ∧
  (∃ x, GridAt r D x h ∧ ((∀ d < D, x d = o d) ∨ r = f ∧ ∀ d < D, |o d - x d| ≤ 1 / 100000000 + 1 / 100000 * |x d|)) ∧
  r.ats = f.ats ∧ (∀ d < D, resolved r h d = resolved f h d) ∧ IsWaves D h f ∧ ContinuesWaves D h f r

theorem unstagger_fourier_one (spl : Splines ℝ) (hspl : ExactOnEven spl) {f : Field ℝ ℝ} {D : ℕ} {x0 h : ℕ → ℝ} (hf : GridAt f D x0 h)
    (htwo : ∀ n ∈ f.shape, 2 ≤ n) (hats : f.ats = List.replicate D (some false)) (o : ℕ → ℝ)
    (hnear : ∀ d < D, |o d - x0 d| ≤ 2 * h d) :
    ∃ r, unstaggerOne (byFourierReal spl) ((List.range D).map o) ((List.range D).map h) f = .ok r ∧ WavesMovedTo D h o f r := by
  obtain ⟨g1, g2⟩ := grid_len hf
  have hcsound : f.toComplex.Sound := ⟨⟨hf.sound.ok.lengths, hf.sound.ok.states, hf.sound.ok.origins⟩, hf.sound.valid, hf.sound.nonempty⟩
  have htr : Transformable f.toComplex (List.range D) false (fun d => x0 d - h d / 2) h := by
    refine ⟨⟨?_, ?_, ?_, ?_, ?_⟩, ?_⟩
    · have := hf.one
      intro h0
      rw [List.range_eq_nil] at h0
      omega
    · intro d hd
      have := hf.three
      rw [List.mem_range] at hd
      omega
    · intro d hd
      rw [List.mem_range] at hd
      change f.ats[d]? = _
      rw [hats, List.getElem?_replicate, if_pos hd]
    · intro d hd
      rw [List.mem_range] at hd
      exact (hf.axes d _ (List.getElem?_eq_getElem (by omega))).2
    · intro d hd
      rw [List.mem_range] at hd
      have hd' : f.axes[d]? = some (f.axes[d]'(by omega)) := List.getElem?_eq_getElem (by omega)
      exact ⟨_, hd', (hf.axes d _ hd').1⟩
    · intro d hd n hn
      exact htwo n (List.mem_of_getElem? hn)
  obtain ⟨r, r1, rs, r2, rat, rκ, ra, _, r4, r5⟩ := shift_waves_partial spl hspl f.toComplex hcsound (List.range D) List.nodup_range _ h htr
    (fun d => o d - x0 d)
  refine unstagger_one_of (byFourierReal spl) (WavesMovedTo D h o f) hf o hnear ?_ ?_
  · intro hclose
    refine ⟨rfl, ⟨x0, hf, Or.inr ⟨rfl, hclose⟩⟩, rfl, fun _ _ => rfl, r4, ?_⟩
    · intro A hA idx hidx
      rw [← hA idx hidx, Complex.ofReal_re]
  · refine ⟨⟨r.name, r.unit, Arr.each Complex.re r.matrix, r.axes, r.ats, r.tao⟩, ?_, r2, ?_, rat, fun d hd => rκ d (List.mem_range.2 hd), r4, ?_⟩
    · unfold byFourierReal
      rw [enumerate_range, r1]
      exact replaceData_each _ r
    · refine ⟨o, ⟨⟨⟨rs.ok.lengths, rs.ok.states, rs.ok.origins⟩, rs.valid, rs.nonempty⟩, ?_, hf.one, hf.three, ?_⟩,
        Or.inl fun _ _ => rfl⟩
      · change r.shape.length = D
        rw [r2]
        exact hf.dims
      · intro d ax hd
        change r.axes[d]? = some ax at hd
        have hdD : d < D := by
          have h1 := (List.getElem?_eq_some_iff.1 hd).1
          have h2 := rs.ok.lengths
          have h3 : r.axes.length = D := by
            rw [← List.length_map (f := Axis.len), h2, r2]
            exact hf.dims
          omega
        obtain ⟨ax', a1, a2⟩ := ra d (List.mem_range.2 hdD)
        rw [hd] at a1
        obtain rfl := Option.some.inj a1
        refine ⟨?_, htr.pos d (List.mem_range.2 hdD)⟩
        have : o d - h d / 2 = x0 d - h d / 2 + (o d - x0 d) := by ring
        rw [this]
        exact a2
    · intro A hA idx hidx
      exact congrArg Complex.re (r5 A hA idx hidx)

/-- The fields which can be moved with the fourier method: real fields in the spatial domain on even grids with at least two points along
each of one to three dimensions. -/
structure Staggered (f : Field ℝ ℝ) (D : ℕ) (x0 h : ℕ → ℝ) : Prop where
  grid : GridAt f D x0 h
  two : ∀ n ∈ f.shape, 2 ≤ n
  spatial : f.ats = List.replicate D (some false)

/-- C109: real fields with the same shape and spacings, whose grids are at most two cells away from the common origin, are moved to the
common origin by `unstagger_fields` with its default method: they keep their shapes and cells, and the values are those of the waves which
make up the given field, at the new positions. The common origin is the given one, otherwise that of the first of up to two fields and
for more fields the median along each dimension. Partial: in exact arithmetic; grids closer to the origin than the tolerance of `np.isclose`
stay where they are (see `unstagger_tolerance_violated`), and of the shortest wave only the real part is kept (see
`unstagger_nyquist_violated`). -/
theorem unstagger_fourier_partial (spl : Splines ℝ) (hspl : ExactOnEven spl) (fields : List (Field ℝ ℝ)) (hne : fields ≠ []) (D : ℕ)
    (x0 : Field ℝ ℝ → ℕ → ℝ) (h : ℕ → ℝ) (hf : ∀ f ∈ fields, Staggered f D (x0 f) h)
    (hs : ∀ f ∈ fields, ∀ g ∈ fields, g.shape = f.shape) (origin : Option (List ℝ)) (o : ℕ → ℝ)
    (ho : match origin with
      | some l => l = (List.range D).map o
      | none => if fields.length ≤ 2 then ∀ f, fields.head? = some f → ∀ d < D, o d = x0 f d
          else ∀ d < D, IsMedian (fields.map fun f => x0 f d) (o d))
    (hnear : ∀ f ∈ fields, ∀ d < D, |o d - x0 f d| ≤ 2 * h d) :
    ∃ res, unstaggerFields (byFourierReal spl) fields origin = .ok res ∧ List.Forall₂ (WavesMovedTo D h o) fields res :=
  unstagger_of (byFourierReal spl) (WavesMovedTo D h o) fields hne D x0 h (fun f hm => (hf f hm).grid) hs origin o (by cases origin <;> exact ho) fun f hm =>
    unstagger_fourier_one spl hspl (hf f hm).grid (hf f hm).two (hf f hm).spatial o (hnear f hm)

/-- C109: `adjust_stagger_to` moves a field to the grid of another one with the fourier method. Partial: as `unstagger_fourier_partial`. -/
theorem adjust_stagger_fourier_partial (spl : Splines ℝ) (hspl : ExactOnEven spl) (f g : Field ℝ ℝ) (D : ℕ) (x0 x1 h h' : ℕ → ℝ)
    (hf : Staggered f D x0 h) (hg : GridAt g D x1 h') (hnear : ∀ d < D, |x1 d - x0 d| ≤ 2 * h d) :
    ∃ r, f.adjustStaggerTo (byFourierReal spl) g = .ok r ∧ WavesMovedTo D h x1 f r := by
  obtain ⟨res, h1, h2⟩ := unstagger_fourier_partial spl hspl [f] (by simp) D (fun _ => x0) h (by simpa using hf) (by simp)
    (some ((List.range D).map x1)) x1 rfl (by simpa using hnear)
  cases h2 with
  | cons h3 h4 =>
    cases h4
    refine ⟨_, ?_, h3⟩
    unfold Field.adjustStaggerTo
    rw [grid_origin hg]
    simp only [bind, Except.bind]
    rw [h1]
    rfl

theorem coordAt_grid {f : Field ℝ ℝ} {D : ℕ} {x h : ℕ → ℝ} (hf : GridAt f D x h) {idx : List ℕ} (hidx : InBounds f.shape idx) {d : ℕ}
    (hd : d < D) : coordAt f.axes idx d = x d + (idx.getD d 0 : ℕ) * h d := by
  obtain ⟨g1, g2⟩ := grid_len hf
  have hx : f.axes[d]? = some (f.axes[d]'(by omega)) := List.getElem?_eq_getElem (by omega)
  have hl : d < idx.length := by rw [hidx.1, hf.dims]; exact hd
  have hi : idx[d]? = some (idx.getD d 0) := by
    rw [List.getD_eq_getElem?_getD, List.getElem?_eq_getElem hl]
    rfl
  have hlt : idx.getD d 0 < (f.axes[d]'(by omega)).len := by
    refine hidx.2 d _ _ hi ?_
    rw [← hf.sound.ok.lengths, List.getElem?_map, hx]
    rfl
  unfold coordAt
  rw [hx]
  simp only [Option.map_some, Option.getD_some]
  rw [(even_iff.1 (hf.axes d _ hx).1).2.1]
  generalize idx.getD d 0 = j at hlt
  rw [List.getD_eq_getElem?_getD, ap_get _ _ _ _ hlt]
  simp

/-- The position of a grid is determined. -/
theorem gridAt_unique {f : Field ℝ ℝ} {D : ℕ} {x y h h' : ℕ → ℝ} (h1 : GridAt f D x h) (h2 : GridAt f D y h') {d : ℕ} (hd : d < D) :
    x d = y d := by
  have e := (grid_origin h1).symm.trans (grid_origin h2)
  have e := congrArg (fun l => l[d]?) (Except.ok.inj e)
  simpa [hd] using e

/-- C109: a field made of waves whose superposition is real everywhere is moved to the grid of another field and back without a change.
Partial: the grids are at most two cells apart, and further than the tolerance of `np.isclose`. -/
theorem stagger_back_partial (spl : Splines ℝ) (hspl : ExactOnEven spl) (f g : Field ℝ ℝ) (D : ℕ) (x0 x1 h h' : ℕ → ℝ)
    (hf : Staggered f D x0 h) (hg : GridAt g D x1 h') (hnear : ∀ d < D, |x1 d - x0 d| ≤ 2 * h d)
    (hapart : ∃ d < D, 1 / 100000000 + 1 / 100000 * |x0 d| < |x1 d - x0 d| ∧ 1 / 100000000 + 1 / 100000 * |x1 d| < |x1 d - x0 d|)
    (A : List ℕ → ℂ) (hA : ∀ idx, InBounds f.shape idx →
      (f.matrix.at' idx : ℂ) = wavesAt (resolved f h) (coordAt f.axes idx) (List.range D) A idx)
    (hreal : ∀ x idx, InBounds f.shape idx → (wavesAt (resolved f h) x (List.range D) A idx).im = 0) :
    ∃ r s, f.adjustStaggerTo (byFourierReal spl) g = .ok r ∧ r.adjustStaggerTo (byFourierReal spl) f = .ok s ∧
      GridAt r D x1 h ∧ GridAt s D x0 h ∧ s.shape = f.shape ∧ ∀ idx, InBounds f.shape idx → s.matrix.at' idx = f.matrix.at' idx := by
  obtain ⟨d0, hd0, ap1, ap2⟩ := hapart
  have hcopy : ∀ {f : Field ℝ ℝ} {x y h : ℕ → ℝ}, GridAt f D x h → (∀ d < D, x d = y d) → GridAt f D y h := by
    intro f x y h hx he
    refine ⟨hx.sound, hx.dims, hx.one, hx.three, ?_⟩
    intro d ax hd
    have hdD : d < D := by
      rw [← (grid_len hx).1]
      exact (List.getElem?_eq_some_iff.1 hd).1
    rw [← he d hdD]
    exact hx.axes d ax hd
  obtain ⟨r, r1, w1, ⟨x, w2, w3⟩, w4, w5, _, w7⟩ := adjust_stagger_fourier_partial spl hspl f g D x0 x1 h h' hf hg hnear
  have hr : GridAt r D x1 h := by
    rcases w3 with w3 | ⟨rfl, w3⟩
    · exact hcopy w2 w3
    · exfalso
      have e := gridAt_unique w2 hf.grid hd0
      have := w3 d0 hd0
      rw [e] at this
      linarith
  obtain ⟨s, s1, v1, ⟨y, v2, v3⟩, v4, v5, _, v7⟩ := adjust_stagger_fourier_partial spl hspl r f D x1 x0 h h
    ⟨hr, by rw [w1]; exact hf.two, w4.trans hf.spatial⟩ hf.grid (by
      intro d hd
      rw [abs_sub_comm]
      exact hnear d hd)
  have hs : GridAt s D x0 h := by
    rcases v3 with v3 | ⟨rfl, v3⟩
    · exact hcopy v2 v3
    · exfalso
      have e := gridAt_unique v2 hr hd0
      have := v3 d0 hd0
      rw [e, abs_sub_comm] at this
      linarith
  refine ⟨r, s, r1, s1, hr, hs, v1.trans w1, ?_⟩
  intro idx hidx
  have hrA : ∀ idx, InBounds r.shape idx →
      (r.matrix.at' idx : ℂ) = wavesAt (resolved r h) (coordAt r.axes idx) (List.range D) A idx := by
    intro idx hidx
    rw [w1] at hidx
    rw [wavesAt_kappa (κ' := resolved f h) (fun d hd => w5 d (List.mem_range.1 hd)), w7 A hA idx hidx]
    exact Complex.ext rfl (by rw [Complex.ofReal_im, hreal _ idx hidx])
  rw [v7 A hrA idx (by rw [w1]; exact hidx), wavesAt_kappa (κ' := resolved f h) (fun d hd => w5 d (List.mem_range.1 hd)),
    wavesAt_congr (y := coordAt f.axes idx) (fun d hd => by
      rw [coordAt_grid hs (by rw [v1, w1]; exact hidx) (List.mem_range.1 hd), coordAt_grid hf.grid hidx (List.mem_range.1 hd)]),
    ← hA idx hidx, Complex.ofReal_re]

/-! ### Examples -/

/-- Two points at `x` and `x + 1`. -/
def pair (x : ℝ) (a b : ℝ) : Field ℝ ℝ :=
  ⟨"E", "V/m", ⟨[2], fun idx => if idx.getD 0 0 = 0 then a else b⟩, [evenAxisOf "x" "m" (x - 1 / 2) 1 2], [some false], [none]⟩

theorem pair_grid (x a b : ℝ) : Staggered (pair x a b) 1 (fun _ => x) (fun _ => 1) := by
  refine ⟨⟨⟨⟨?_, rfl, rfl⟩, ?_, by simp [pair, Field.shape]⟩, rfl, by omega, by omega, ?_⟩, by simp [pair, Field.shape], rfl⟩
  · simp [pair, evenAxisOf, Axis.len, ap_length, Field.shape]
  · intro ax hax
    simp only [pair, List.mem_cons, List.not_mem_nil, or_false] at hax
    obtain rfl := hax
    exact evenAxisOf_valid _ _ _ _ (by norm_num) _
  · intro d ax hd
    match d, hd with
    | 0, hd =>
      cases hd
      exact ⟨evenAxisOf_even "x" "m" (x - 1 / 2) 1 2, by norm_num⟩
    | d + 1, hd => simp [pair] at hd

/-- C109 fails for the shortest wave: the values 1 and -1 are moved by half a cell and become zero. -/
theorem unstagger_nyquist_violated : ∃ r, (pair 0 1 (-1)).adjustStaggerTo (byFourierReal lineSplines) (pair (1 / 2) 0 0) = .ok r ∧
    r.matrix.at' [0] = 0 ∧ r.matrix.at' [1] = 0 := by
  obtain ⟨r, r1, w1, ⟨x, w2, w3⟩, w4, w5, _, w7⟩ := adjust_stagger_fourier_partial lineSplines lineSplines_exact (pair 0 1 (-1))
    (pair (1 / 2) 0 0) 1 _ _ _ _ (pair_grid 0 1 (-1)) (pair_grid (1 / 2) 0 0).grid (by intro d _; norm_num)
  have hx : x 0 = 1 / 2 := by
    rcases w3 with w3 | ⟨rfl, w3⟩
    · exact w3 0 (by omega)
    · exfalso
      have e := gridAt_unique w2 (pair_grid 0 1 (-1)).grid (d := 0) (by omega)
      have := w3 0 (by omega)
      rw [e] at this
      norm_num at this
  have hκ : resolved (pair 0 1 (-1)) (fun _ => 1) 0 = [-Real.pi, 0] := by
    simp [resolved, waveNumbers, pair, Field.shape, List.range_succ]
  have hb : ∀ i < 2, InBounds (pair 0 1 (-1)).shape [i] := by
    intro i hi
    refine ⟨rfl, ?_⟩
    intro d j n hj hn
    match d, hj, hn with
    | 0, hj, hn =>
      cases hj
      cases hn
      exact hi
    | d + 1, hj, hn => simp at hj
  have hW : ∀ (x : ℕ → ℝ) (i : ℕ), wavesAt (resolved (pair 0 1 (-1)) fun _ => 1) x (List.range 1)
      (fun idx => if idx = [0] then 1 else 0) [i] = Complex.exp (Complex.I * ((-Real.pi : ℝ) : ℂ) * (x 0 : ℝ)) := by
    intro x i
    simp [wavesAt, hκ, Finset.sum_range_succ, List.range_succ]
  have key := w7 (fun idx => if idx = [0] then 1 else 0) (by
    intro idx hidx
    obtain ⟨i, hi, rfl⟩ : ∃ i, i < 2 ∧ idx = [i] := by
      match idx, hidx with
      | [i], hidx => exact ⟨i, hidx.2 0 i 2 rfl rfl, rfl⟩
    rw [hW, coordAt_grid (pair_grid 0 1 (-1)).grid hidx (by omega)]
    have : i = 0 ∨ i = 1 := by omega
    rcases this with rfl | rfl
    · simp [pair]
    · have : Complex.I * ((-Real.pi : ℝ) : ℂ) * ((0 + ([1].getD 0 0 : ℕ) * 1 : ℝ) : ℂ) = -(Real.pi * Complex.I) := by
        push_cast
        simp
        ring
      rw [this, Complex.exp_neg, Complex.exp_pi_mul_I]
      simp [pair])
  have hz : ∀ i < 2, r.matrix.at' [i] = 0 := by
    intro i hi
    rw [key [i] (hb i hi), hW, coordAt_grid w2 (by rw [w1]; exact hb i hi) (by omega), hx]
    have : i = 0 ∨ i = 1 := by omega
    rcases this with rfl | rfl
    · have : Complex.I * ((-Real.pi : ℝ) : ℂ) * ((1 / 2 + ([0].getD 0 0 : ℕ) * 1 : ℝ) : ℂ) = ((-(Real.pi / 2) : ℝ) : ℂ) * Complex.I := by
        push_cast
        simp
        ring
      rw [this, Complex.exp_ofReal_mul_I_re, Real.cos_neg, Real.cos_pi_div_two]
    · have : Complex.I * ((-Real.pi : ℝ) : ℂ) * ((1 / 2 + ([1].getD 0 0 : ℕ) * 1 : ℝ) : ℂ) =
          ((-(Real.pi / 2 + Real.pi) : ℝ) : ℂ) * Complex.I := by
        push_cast
        simp
        ring
      rw [this, Complex.exp_ofReal_mul_I_re, Real.cos_neg, Real.cos_add_pi, Real.cos_pi_div_two, neg_zero]
  exact ⟨r, r1, hz 0 (by omega), hz 1 (by omega)⟩

example (σ : ℕ → ℝ) := shift_waves_partial lineSplines lineSplines_exact field32 field32_sound _ (by decide) _ _ field32_dims σ

example : ∃ res, unstaggerFields (byFourierReal lineSplines) [pair 0 1 2, pair (1 / 2) 3 5] none = .ok res ∧
    List.Forall₂ (WavesMovedTo 1 (fun _ => 1) (fun _ => 0)) [pair 0 1 2, pair (1 / 2) 3 5] res := by
  have hx : ∀ f ∈ [pair 0 1 2, pair (1 / 2) 3 5], Staggered f 1 (fun _ => coordAt f.axes [0] 0) (fun _ => 1) := by
    intro f hf
    simp only [List.mem_cons, List.not_mem_nil, or_false] at hf
    have hb : ∀ x a b, InBounds (pair x a b).shape [0] := by
      intro x a b
      refine ⟨rfl, ?_⟩
      intro d j n hj hn
      match d, hj, hn with
      | 0, hj, hn =>
        cases hj
        cases hn
        omega
      | d + 1, hj, hn => simp at hj
    rcases hf with rfl | rfl
    · have e := coordAt_grid (pair_grid 0 1 2).grid (hb _ _ _) (d := 0) (by omega)
      rw [e]
      simpa using pair_grid 0 1 2
    · have e := coordAt_grid (pair_grid (1 / 2) 3 5).grid (hb _ _ _) (d := 0) (by omega)
      rw [e]
      simpa using pair_grid (1 / 2) 3 5
  have e1 : coordAt (pair 0 1 2).axes [0] 0 = 0 := by
    norm_num [coordAt, pair, evenAxisOf, ap, List.range_succ]
  have e2 : coordAt (pair (1 / 2) 3 5).axes [0] 0 = 1 / 2 := by
    norm_num [coordAt, pair, evenAxisOf, ap, List.range_succ]
  refine unstagger_fourier_partial lineSplines lineSplines_exact _ (by simp) 1 (fun f _ => coordAt f.axes [0] 0) _ hx (by
    intro f hf g hg
    simp only [List.mem_cons, List.not_mem_nil, or_false] at hf hg
    rcases hf with rfl | rfl <;> rcases hg with rfl | rfl <;> rfl) none _ ?_ ?_
  · simp only [List.length_cons, List.length_nil]
    rw [if_pos (by omega)]
    intro f hf d _
    obtain rfl := Option.some.inj hf
    exact e1.symm
  · intro f hf d _
    simp only [List.mem_cons, List.not_mem_nil, or_false] at hf
    rcases hf with rfl | rfl
    · rw [e1]
      norm_num
    · rw [e2]
      norm_num

/-- A cosine on three points at `x`, `x + 1` and `x + 2`. -/
def cosine (x : ℝ) : Field ℝ ℝ :=
  ⟨"E", "V/m", ⟨[3], fun idx => Real.cos (2 * Real.pi / 3 * (x + idx.getD 0 0))⟩, [evenAxisOf "x" "m" (x - 1 / 2) 1 3], [some false], [none]⟩

theorem cosine_grid (x : ℝ) : Staggered (cosine x) 1 (fun _ => x) (fun _ => 1) := by
  refine ⟨⟨⟨⟨?_, rfl, rfl⟩, ?_, by simp [cosine, Field.shape]⟩, rfl, by omega, by omega, ?_⟩, by simp [cosine, Field.shape], rfl⟩
  · simp [cosine, evenAxisOf, Axis.len, ap_length, Field.shape]
  · intro ax hax
    simp only [cosine, List.mem_cons, List.not_mem_nil, or_false] at hax
    obtain rfl := hax
    exact evenAxisOf_valid _ _ _ _ (by norm_num) _
  · intro d ax hd
    match d, hd with
    | 0, hd =>
      cases hd
      exact ⟨evenAxisOf_even "x" "m" (x - 1 / 2) 1 3, by norm_num⟩
    | d + 1, hd => simp [cosine] at hd

example := by
  have hκ : resolved (cosine 0) (fun _ => 1) 0 = [-(2 * Real.pi / 3), 0, 2 * Real.pi / 3] := by
    simp [resolved, waveNumbers, cosine, Field.shape, List.range_succ]
    ring
  have hW : ∀ (x : ℕ → ℝ) (i : ℕ), wavesAt (resolved (cosine 0) fun _ => 1) x (List.range 1)
      (fun idx => if idx = [1] then 0 else 1 / 2) [i] = (Real.cos (2 * Real.pi / 3 * x 0) : ℝ) := by
    intro x i
    rw [Complex.ofReal_cos, Complex.cos]
    simp [wavesAt, hκ, Finset.sum_range_succ, List.range_succ]
    ring_nf
  have hone : ∀ idx, InBounds (cosine 0).shape idx → ∃ i, idx = [i] := by
    intro idx hidx
    match idx, hidx with
    | [i], _ => exact ⟨i, rfl⟩
  exact stagger_back_partial lineSplines lineSplines_exact (cosine 0) (cosine (1 / 2)) 1 _ _ _ _ (cosine_grid 0) (cosine_grid (1 / 2)).grid
    (by intro d _; norm_num) ⟨0, by omega, by norm_num, by norm_num⟩ (fun idx => if idx = [1] then 0 else 1 / 2)
    (by
      intro idx hidx
      have hc := coordAt_grid (cosine_grid 0).grid hidx (d := 0) (by omega)
      obtain ⟨i, rfl⟩ := hone idx hidx
      rw [hW, hc]
      simp [cosine])
    (by
      intro x idx hidx
      obtain ⟨i, rfl⟩ := hone idx hidx
      rw [hW, Complex.ofReal_im])

end

end Postpic.Props
