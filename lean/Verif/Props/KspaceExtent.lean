import Verif.Lemmas.KspaceExtent
import Verif.Props.EpochLike
import Verif.Props.Stagger

/-!
# Reconstruction of the k-space in a part of the grid, and with linear interpolation
-/

set_option autoImplicit false

namespace Postpic.Props

open Postpic Postpic.Axes Postpic.Fields Postpic.Spec

noncomputable section

theorem componentName_ne : ∀ (electric : Bool) (p : Fin 3), componentName electric p ≠ "" := by
  decide

/-- What is passed to `kspace` after the cut. -/
theorem cut_input {spl : Splines ℝ} (hspl : ExactOnEven spl) {fields : List (String × Field ℝ ℂ)} {electric : Bool}
    {p : Fin 3} {interp : Interpolation} {shape : List ℕ} {main : Field ℝ ℂ} {other : Fin 3 → Field ℝ ℂ} {state : Bool}
    {states : Fin 3 → Bool} {x0 h : ℕ → ℝ} {y0 : Fin 3 → ℕ → ℝ}
    (hin : KspaceInput fields electric p interp shape main other state states x0 h y0)
    (hexact : interp = .none → ∀ j, Needed shape.length p j → ∀ d < shape.length, y0 j d = x0 d)
    (hall : ∀ q ∈ fields, ∃ s a b, OnGrid q.2 shape s a b) {ext : List ℝ} (he : ExtentFits ext shape x0 h) :
    ∃ (lo n : List ℕ) (S M : Field ℝ ℂ) (So O : Fin 3 → Field ℝ ℂ) (cut : List (String × Field ℝ ℂ)),
      lo.length = shape.length ∧ n.length = shape.length ∧ PointsWithin ext shape lo n x0 h ∧
      main.ensureTransformState spl (.all false) = .ok S ∧ (state = false → S = main) ∧ PartOf S M lo ∧
      (∀ j, Needed shape.length p j → (other j).ensureTransformState spl (.all false) = .ok (So j) ∧
        (states j = false → So j = other j) ∧ PartOf (So j) (O j) lo) ∧
      applyExtent spl (componentName electric p) fields ext = .ok cut ∧
      KspaceInput cut electric p interp n M O false (fun _ => false) (fun d => x0 d + lo.getD d 0 * h d) h
        (fun j d => y0 j d + lo.getD d 0 * h d) ∧
      ∀ q ∈ cut, ∃ s a b, OnGrid q.2 n s a b := by
  obtain ⟨lo, n, φ, a1, a2, a3, a4, a5⟩ := applyExtent_ok hspl hin.present hin.mainGrid hall he
  obtain ⟨S, s1, s2, s3, s4, s5⟩ := a5 _ _ _ _ hin.mainGrid
  have hother : ∀ j, ∃ So, Needed shape.length p j → (other j).ensureTransformState spl (.all false) = .ok So ∧
      (states j = false → So = other j) ∧ PartOf So (φ (other j)) lo ∧
      OnGrid (φ (other j)) n false (fun d => y0 j d + lo.getD d 0 * h d) h := by
    intro j
    by_cases hj : Needed shape.length p j
    · obtain ⟨So, t1, t2, t3, t4, t5⟩ := a5 _ _ _ _ (hin.otherGrid j hj)
      exact ⟨So, fun _ => ⟨t1, t3, t4, t5⟩⟩
    · exact ⟨main, fun h => absurd h hj⟩
  choose So hSo using hother
  refine ⟨lo, n, S, φ main, So, fun j => φ (other j), _, a1, a2, a3, s1, s3, s4,
    fun j hj => ⟨(hSo j hj).1, (hSo j hj).2.1, (hSo j hj).2.2.1⟩, a4, ⟨?_, s5, ?_, ?_, ?_⟩, ?_⟩
  · rw [lookup_mapped, hin.present]
    rfl
  · intro j hj
    rw [a2] at hj
    rw [lookup_mapped, hin.othersPresent j hj]
    rfl
  · intro j hj
    rw [a2] at hj
    exact (hSo j hj).2.2.2
  · intro j hj
    rw [a2] at hj ⊢
    have hm := hin.aligned j hj
    cases interp with
    | none =>
      intro d hd
      simp only [hexact rfl j hj d hd, sub_self, abs_zero]
      positivity
    | fourier =>
      intro d hd
      have := hm d hd
      rwa [show x0 d + (lo.getD d 0 : ℝ) * h d - (y0 j d + (lo.getD d 0 : ℝ) * h d) = x0 d - y0 j d by ring]
    | linear => exact hm
  · intro q hq
    obtain ⟨q', hq', rfl⟩ := List.mem_map.1 hq
    obtain ⟨s, a, b, hg⟩ := hall q' hq'
    obtain ⟨_, _, _, _, _, h5⟩ := a5 _ _ _ _ hg
    exact ⟨_, _, _, h5⟩

/-- C40: with an `extent` the fields are transformed to the spatial domain and cut before anything else: `n d` points from the
point number `lo d` on remain, which are exactly those of the component between the two limits along the dimension `d`,
and the other fields are cut at the same numbers. The result has the values, axes, name and unit of `kspace` for the parts. The
dictionary of the caller and its fields stay as they were. Partial: evenly spaced grids with the same number of points for all
fields of the dictionary, at least two points remain along each dimension, one of the two limits is inside of the box; no linear
interpolation. -/
theorem kspace_extent_partial (spl : Splines ℝ) (hspl : ExactOnEven spl) (lin : Field ℝ ℂ → List ℝ → Res (Field ℝ ℂ))
    (omega : List ℝ → Option ℝ) (fields : List (String × Field ℝ ℂ)) (electric : Bool) (p : Fin 3)
    (interp : Interpolation) (shape : List ℕ) (main : Field ℝ ℂ) (other : Fin 3 → Field ℝ ℂ) (state : Bool)
    (states : Fin 3 → Bool) (x0 h : ℕ → ℝ) (y0 : Fin 3 → ℕ → ℝ)
    (hin : KspaceInput fields electric p interp shape main other state states x0 h y0)
    (hexact : interp = .none → ∀ j, Needed shape.length p j → ∀ d < shape.length, y0 j d = x0 d)
    (hall : ∀ q ∈ fields, ∃ s a b, OnGrid q.2 shape s a b) (ext : List ℝ) (he : ExtentFits ext shape x0 h) :
    ∃ (lo n : List ℕ) (S M F : Field ℝ ℂ) (So O G : Fin 3 → Field ℝ ℂ) (r : Field ℝ ℂ),
      n.length = shape.length ∧ PointsWithin ext shape lo n x0 h ∧
      main.ensureTransformState spl (.all false) = .ok S ∧ (state = false → S = main) ∧ PartOf S M lo ∧
      OnGrid M n false (fun d => x0 d + lo.getD d 0 * h d) h ∧
      (∀ j, Needed shape.length p j → (other j).ensureTransformState spl (.all false) = .ok (So j) ∧
        (states j = false → So j = other j) ∧ PartOf (So j) (O j) lo ∧
        OnGrid (O j) n false (fun d => y0 j d + lo.getD d 0 * h d) h) ∧
      M.ensureTransformState spl (.all true) = .ok F ∧
      (∀ j, Needed shape.length p j → (O j).ensureTransformState spl (.all true) = .ok (G j)) ∧
      kspaceIn spl lin (componentName electric p) fields (some ext) interp omega = .ok (r, fields) ∧
      r.axes = F.axes ∧ r.ats = F.ats ∧ r.tao = F.tao ∧ r.name = F.name ∧ r.unit = F.unit ∧ r.shape = n ∧
      ∀ idx, InBounds n idx → ∀ B : Fin 3 → ℂ, (∀ j, Needed shape.length p j → B j = (G j).matrix.at' idx) →
        r.matrix.at' idx = F.matrix.at' idx +
          crossFactor electric (omega ((List.ofFn (waveVector F idx)).take shape.length)) (waveVector F idx) *
            cross (waveVector F idx) B p := by
  obtain ⟨lo, n, S, M, So, O, cut, c1, c2, c3, c4, c5, c6, c7, c8, c9, c10⟩ := cut_input hspl hin hexact hall he
  obtain ⟨F, G, r, after, k1, k2, k3, k4, k5, k6, k7, k8, k9, k10, -⟩ := kspace_value_partial spl hspl lin omega cut electric p
    interp n M O false _ _ h _ c9
  refine ⟨lo, n, S, M, F, So, O, G, r, c2, c3, c4, c5, c6, c9.mainGrid, ?_, k1, ?_, ?_, k4, k5, k6, k7, k8, k9, ?_⟩
  · intro j hj
    exact ⟨(c7 j hj).1, (c7 j hj).2.1, (c7 j hj).2.2, c9.otherGrid j (by rw [c2]; exact hj)⟩
  · rw [c2] at k2
    exact k2
  · have hne := componentName_ne electric p
    simp only [kspaceIn, if_neg hne, c8, bind, Except.bind, k3]
    rfl
  · rw [c2] at k10
    exact k10

/-- C69: `kspace_epoch_like` with an `extent`: the fields are cut as for `kspace`, and the result is that of `kspace_epoch_like` for
the parts. The dictionary of the caller and its fields stay as they were. Partial: as for `epoch_value_partial`, at least two
points remain along each dimension, one of the two limits is inside of the box. -/
theorem epoch_extent_partial (spl : Splines ℝ) (hspl : ExactOnEven spl) (lin : Field ℝ ℂ → List ℝ → Res (Field ℝ ℂ))
    (omega : List ℝ → Option ℝ) (fields : List (String × Field ℝ ℂ)) (electric : Bool) (p : Fin 3)
    (dt : ℝ) (alignTo : String) (hal : alignTo = "E" ∨ alignTo = "B") (shape : List ℕ) (main : Field ℝ ℂ)
    (other : Fin 3 → Field ℝ ℂ) (state : Bool) (states : Fin 3 → Bool) (x0 h : ℕ → ℝ) (y0 : Fin 3 → ℕ → ℝ)
    (hin : KspaceInput fields electric p .fourier shape main other state states x0 h y0)
    (hall : ∀ q ∈ fields, ∃ s a b, OnGrid q.2 shape s a b) (ext : List ℝ) (he : ExtentFits ext shape x0 h) :
    ∃ (lo n : List ℕ) (S M F : Field ℝ ℂ) (So O G : Fin 3 → Field ℝ ℂ) (r : Field ℝ ℂ),
      n.length = shape.length ∧ PointsWithin ext shape lo n x0 h ∧
      main.ensureTransformState spl (.all false) = .ok S ∧ (state = false → S = main) ∧ PartOf S M lo ∧
      OnGrid M n false (fun d => x0 d + lo.getD d 0 * h d) h ∧
      (∀ j, Needed shape.length p j → (other j).ensureTransformState spl (.all false) = .ok (So j) ∧
        (states j = false → So j = other j) ∧ PartOf (So j) (O j) lo ∧
        OnGrid (O j) n false (fun d => y0 j d + lo.getD d 0 * h d) h) ∧
      M.ensureTransformState spl (.all true) = .ok F ∧
      (∀ j, Needed shape.length p j → (O j).ensureTransformState spl (.all true) = .ok (G j)) ∧
      kspaceEpochLikeIn spl lin (componentName electric p) fields dt (some ext) omega alignTo = .ok (r, fields) ∧
      r.axes = F.axes ∧ r.ats = F.ats ∧ r.tao = F.tao ∧ r.name = F.name ∧ r.unit = F.unit ∧ r.shape = n ∧
      ∀ idx, InBounds n idx → ∀ w, omega ((List.ofFn (waveVector F idx)).take shape.length) = some w →
        meanFactor dt w ≠ 0 → ∀ A : Fin 3 → ℂ, (∀ j, Needed shape.length p j →
          A j = (G j).matrix.at' idx / (correction alignTo (!electric) dt w : ℝ)) →
        r.matrix.at' idx = F.matrix.at' idx / (correction alignTo electric dt w : ℝ) +
          crossFactor electric (omegaFree ((List.ofFn (waveVector F idx)).take shape.length)) (waveVector F idx) *
            cross (waveVector F idx) A p := by
  obtain ⟨lo, n, S, M, So, O, cut, c1, c2, c3, c4, c5, c6, c7, c8, c9, c10⟩ := cut_input hspl hin (by simp) hall he
  obtain ⟨F, G, r, after, k1, k2, k3, k4, k5, k6, k7, k8, k9, k10, -⟩ := epoch_value_partial spl hspl lin omega cut electric p
    dt alignTo hal n M O false _ _ h _ c9 c10
  refine ⟨lo, n, S, M, F, So, O, G, r, c2, c3, c4, c5, c6, c9.mainGrid, ?_, k1, ?_, ?_, k4, k5, k6, k7, k8, k9, ?_⟩
  · intro j hj
    exact ⟨(c7 j hj).1, (c7 j hj).2.1, (c7 j hj).2.2, c9.otherGrid j (by rw [c2]; exact hj)⟩
  · rw [c2] at k2
    exact k2
  · simp only [kspaceEpochLikeIn, parse_component, hin.present, c8, bind, Except.bind, k3]
    rfl
  · rw [c2] at k10
    exact k10

/-- C40: a list of limits with another length than twice the number of dimensions of the component: a `TypeError`. -/
theorem kspace_extent_length (spl : Splines ℝ) (hspl : ExactOnEven spl) (lin : Field ℝ ℂ → List ℝ → Res (Field ℝ ℂ))
    (omega : List ℝ → Option ℝ) (fields : List (String × Field ℝ ℂ)) (electric : Bool) (p : Fin 3)
    (interp : Interpolation) (shape : List ℕ) (main : Field ℝ ℂ) (state : Bool) (x0 h : ℕ → ℝ)
    (hmain : fields.lookup (componentName electric p) = some main) (hg : OnGrid main shape state x0 h)
    (hall : ∀ q ∈ fields, ∃ s a b, OnGrid q.2 shape s a b) (ext : List ℝ) (he : ext.length ≠ 2 * shape.length) :
    kspaceIn spl lin (componentName electric p) fields (some ext) interp omega = .error .typeError := by
  have hne := componentName_ne electric p
  have hstep : ∀ g : Field ℝ ℂ, ∃ S, (∃ s a b, OnGrid g shape s a b) → g.ensureTransformState spl (.all false) = .ok S ∧
      ∃ s a b, OnGrid S shape s a b := by
    intro g
    by_cases hgg : ∃ s a b, OnGrid g shape s a b
    · obtain ⟨s, a, b, hgg⟩ := hgg
      obtain ⟨S, h1, h2, -⟩ := hgg.ensureSpatial hspl
      exact ⟨S, fun _ => ⟨h1, _, _, _, h2⟩⟩
    · exact ⟨g, fun h => absurd h hgg⟩
  choose σ hσ using hstep
  have h1 : (fields.mapM fun q => do
      let g ← q.2.ensureTransformState spl (.all false)
      return (q.1, g)) = (.ok (fields.map fun q => (q.1, σ q.2)) : Res _) := by
    apply mapM_of_forall2
    rw [List.forall₂_map_right_iff, List.forall₂_same]
    intro q hq
    rw [(hσ q.2 (hall q hq)).1]
    rfl
  obtain ⟨-, s, a, b, hS⟩ := hσ main ⟨_, _, _, hg⟩
  have hdims : (σ main).dims = (shape.length : ℤ) := by
    have h3 := dims_sound hS.sound
    rw [hS.size] at h3
    have h4 : 0 < shape.length := List.length_pos_iff.2 hS.some_dim
    omega
  have h2 : (σ main).extentToSlices ext = .error .typeError := by
    unfold Field.extentToSlices
    rw [if_pos]
    rw [hdims]
    omega
  have h3 : applyExtent spl (componentName electric p) fields ext = .error .typeError := by
    unfold applyExtent
    rw [h1]
    unfold cutFields
    simp only [bind, Except.bind, lookup_mapped, hmain, Option.map_some, h2]
  simp only [kspaceIn, if_neg hne, h3, bind, Except.bind]

/-! ### Examples -/

theorem fits32 : ExtentFits [2, 6, 0, 1] [3, 2] (fun d => if d = 0 then 0 + 1 else 0 + 1 / 4)
    (fun d => if d = 0 then 2 else 1 / 2) := by
  refine ⟨rfl, ?_, ?_⟩
  · intro d a b ha hb
    have hd : d = 0 ∨ d = 1 := by
      have := (List.getElem?_eq_some_iff.1 hb).1
      simp at this
      omega
    rcases hd with rfl | rfl
    · simp at ha hb
      subst ha hb
      norm_num
    · simp at ha hb
      subst ha hb
      norm_num
  · intro d a b ha hb
    have hd : d = 0 ∨ d = 1 := by
      have := (List.getElem?_eq_some_iff.1 hb).1
      simp at this
      omega
    rcases hd with rfl | rfl
    · simp at ha hb
      subst ha hb
      exact ⟨1, by simp, by norm_num, by norm_num⟩
    · simp at ha hb
      subst ha hb
      exact ⟨0, by simp, by norm_num, by norm_num⟩

theorem staggered_all : ∀ q ∈ [("Bz", field32At 1 (1 / 4)), ("Ex", field32At 0 0)], ∃ s a b, OnGrid q.2 [3, 2] s a b := by
  intro q hq
  simp only [List.mem_cons, List.not_mem_nil, or_false] at hq
  rcases hq with rfl | rfl
  · exact ⟨_, _, _, field32At_grid _ _⟩
  · exact ⟨_, _, _, field32At_grid _ _⟩

/-- Of the points 1, 3, 5 along `x` the last two are between 2 and 6. -/
example := kspace_extent_partial lineSplines lineSplines_exact (fun f _ => .ok f) omegaFree _ _ _ _ _ _ _ _ _ _ _ _ staggeredInput
  (by simp) staggered_all _ fits32

example := epoch_extent_partial lineSplines lineSplines_exact (fun f _ => .ok f) omegaFree _ _ _ 1 "B" (Or.inr rfl) _ _ _ _ _ _ _ _
  staggeredInput staggered_all _ fits32

example : kspaceIn lineSplines (fun f _ => .ok f) "Ex" [("Bz", field32At 1 (1 / 4)), ("Ex", field32At 0 0)] (some [2, 6])
    .fourier omegaFree = .error .typeError :=
  kspace_extent_length lineSplines lineSplines_exact _ omegaFree _ true 0 .fourier [3, 2] _ _ _ _ rfl (field32At_grid 0 0)
    staggered_all _ (by simp)

/-! ## Linear interpolation -/

/-- A shift with linear interpolation to another origin. -/
theorem linear_at {f : Field ℝ ℂ} {shape : List ℕ} {x0 y0 h : ℕ → ℝ} (spl : Splines ℝ) (hg : OnGrid f shape false y0 h) :
    ∃ S, byLinear spl f ((List.range shape.length).map fun d => x0 d - y0 d) = .ok S ∧ LinearAt f S shape x0 h := by
  have hax : ∀ (d : ℕ) (ax : Axis ℝ), f.axes[d]? = some ax → EvenAxis ax (y0 d - h d / 2) (h d) ∧ 0 < h d := by
    intro d ax hd
    have hd' : d < shape.length := by
      have := (List.getElem?_eq_some_iff.1 hd).1
      rwa [ok_axes_length hg.sound.ok, hg.size] at this
    obtain ⟨ax', h1, h2⟩ := hg.spatial rfl d hd'
    rw [hd] at h1
    cases h1
    exact ⟨h2, hg.pos d hd'⟩
  obtain ⟨S, s1, s2, s3, s4, s5, s6, s7, s8, s9, s10⟩ := shift_linear_partial spl f hg.sound (by rw [hg.size]; exact hg.some_dim)
    (fun d => y0 d - h d / 2) h hax (List.range shape.length) (by
      intro d hd
      have := List.mem_range.1 hd
      have := hg.three
      rw [hg.size]
      omega) (fun d => x0 d - y0 d)
  refine ⟨S, ?_, ⟨⟨s2, s3.trans hg.size, hg.some_dim, hg.three, hg.two, hg.pos, ?_, ?_, by simp⟩, s4, s5, s10⟩⟩
  · unfold byLinear
    rw [enumerate_range]
    exact s1
  · intro d hd
    rw [s6]
    exact hg.states d hd
  · intro _ d hd
    obtain ⟨ax, h1, h2⟩ := hg.spatial rfl d hd
    obtain ⟨ax', h3, h4, h5⟩ := s9 d (List.mem_range.2 hd) ax h1
    refine ⟨ax', h3, ?_⟩
    have hv := s2.valid ax' (List.mem_of_getElem? h3)
    have hev := even_iff.1 h2
    have hlen : ax'.len = ax.len := by
      show ax'.grid.length = ax.grid.length
      rw [h5, List.length_map]
    have hmap : ∀ (a : ℝ) (m : ℕ), (ap a (h d) m).map (· + (x0 d - y0 d)) = ap (a + (x0 d - y0 d)) (h d) m := by
      intro a m
      apply ap_ext
      · rw [List.length_map, ap_length]
      · intro i hi
        rw [List.getElem?_map, ap_get _ _ _ _ hi]
        show some _ = some _
        congr 1
        ring
    have g2 : ax'.gridNode = ap (x0 d - h d / 2) (h d) (ax'.len + 1) := by
      rw [h4, hev.1, hmap, hlen]
      congr 1
      ring
    have g1 : ax'.grid = ap (x0 d - h d / 2 + h d / 2) (h d) ax'.len := by
      rw [h5, hev.2.1, hmap, hlen]
      congr 1
      ring
    refine even_iff.2 ⟨g2, g1, ?_⟩
    have k1 := hv.first
    have k2 := hv.last
    rw [g2, ap_head] at k1
    rw [g2, ap_last] at k2
    exact Prod.ext (Option.some.inj k1).symm (Option.some.inj k2).symm

/-- The other field after the checks of its grid and the linear interpolation. -/
theorem aligned_linear {f : Field ℝ ℂ} {shape : List ℕ} {x0 y0 h : ℕ → ℝ} {spl : Splines ℝ} (hspl : ExactOnEven spl)
    (hg : OnGrid f shape false y0 h) (hnear : ∀ d < shape.length, |x0 d - y0 d| < 2 * h d) :
    ∃ S G, byLinear spl f ((List.range shape.length).map fun d => x0 d - y0 d) = .ok S ∧ LinearAt f S shape x0 h ∧
      S.ensureTransformState spl (.all true) = .ok G ∧
      f.aligned spl (byLinear spl) .linear shape
        ((List.range shape.length).map fun d => (x0 d, ((shape.getD d 0 : ℕ) - 1 : ℝ) * h d))
        ((List.range shape.length).map h) = .ok G := by
  obtain ⟨S, h1, h2⟩ := linear_at (x0 := x0) spl hg
  obtain ⟨G, h3, h4, -⟩ := h2.grid.ensure hspl
  have hun : f.unmixed spl .linear = .ok f := by
    unfold Field.unmixed
    rw [hg.collective]
    rfl
  have hbox : allClose (((List.range shape.length).map fun d => (x0 d, ((shape.getD d 0 : ℕ) - 1 : ℝ) * h d)).map (·.2))
      (((List.range shape.length).map fun d => (y0 d, ((shape.getD d 0 : ℕ) - 1 : ℝ) * h d)).map (·.2)) = true := by
    rw [List.map_map, List.map_map]
    apply allClose_range
    intro d _
    simp only [Function.comp, sub_self, abs_zero]
    positivity
  have hshift : ((((List.range shape.length).map fun d => (x0 d, ((shape.getD d 0 : ℕ) - 1 : ℝ) * h d)).zip
      ((List.range shape.length).map fun d => (y0 d, ((shape.getD d 0 : ℕ) - 1 : ℝ) * h d))).map
        fun p => p.1.1 - p.2.1) = (List.range shape.length).map fun d => x0 d - y0 d :=
    zip_map_range _ _ _ _
  have hall : ((((List.range shape.length).map fun d => x0 d - y0 d).zip ((List.range shape.length).map h)).all
      fun p => decide (|p.1| < 2 * p.2)) = true := by
    rw [List.zip_map', List.all_eq_true]
    intro p hp
    obtain ⟨d, hd, rfl⟩ := List.mem_map.1 hp
    simpa using hnear d (List.mem_range.1 hd)
  obtain ⟨S', s1, s2, s3⟩ := hg.ensureSpatial hspl
  obtain rfl := s3 rfl
  refine ⟨S, G, h1, h2, h3, ?_⟩
  unfold Field.aligned
  rw [hun]
  simp only [bind, Except.bind, hg.data]
  rw [if_neg (not_not.2 hg.size), hbox, hshift]
  simp only [hall, s1, h1]
  exact h3

/-- C40: with linear interpolation the needed components of the other field, which are given in the spatial domain on grids closer
than two cells, are first interpolated linearly at the grid of the component, and then transformed; the result is
`E - ω/k² (k × B)` or `B + 1/ω (k × E)` with these. If the component is given in the spatial domain, the dictionary of
the caller stays as it was. Partial: evenly spaced grids; the data of the other fields have a real type (see
`kspace_linear_complex_violated`); the factor 0.5 of the documentation is missing. -/
theorem kspace_linear_partial (spl : Splines ℝ) (hspl : ExactOnEven spl) (omega : List ℝ → Option ℝ)
    (fields : List (String × Field ℝ ℂ)) (electric : Bool) (p : Fin 3) (shape : List ℕ) (main : Field ℝ ℂ)
    (other : Fin 3 → Field ℝ ℂ) (state : Bool) (x0 h : ℕ → ℝ) (y0 : Fin 3 → ℕ → ℝ)
    (hpres : fields.lookup (componentName electric p) = some main) (hmain : OnGrid main shape state x0 h)
    (hothers : ∀ j, Needed shape.length p j → fields.lookup (componentName (!electric) j) = some (other j))
    (hgrids : ∀ j, Needed shape.length p j → OnGrid (other j) shape false (y0 j) h)
    (hnear : ∀ j, Needed shape.length p j → ∀ d < shape.length, |x0 d - y0 j d| < 2 * h d) :
    ∃ (F : Field ℝ ℂ) (S G : Fin 3 → Field ℝ ℂ) (r : Field ℝ ℂ) (after : List (String × Field ℝ ℂ)),
      main.ensureTransformState spl (.all true) = .ok F ∧
      (∀ j, Needed shape.length p j → LinearAt (other j) (S j) shape x0 h ∧
        (S j).ensureTransformState spl (.all true) = .ok (G j)) ∧
      kspace spl (byLinear spl) (componentName electric p) fields .linear omega = .ok (r, after) ∧
      r.axes = F.axes ∧ r.ats = F.ats ∧ r.tao = F.tao ∧ r.name = F.name ∧ r.unit = F.unit ∧ r.shape = shape ∧
      (∀ idx, InBounds shape idx → ∀ B : Fin 3 → ℂ, (∀ j, Needed shape.length p j → B j = (G j).matrix.at' idx) →
        r.matrix.at' idx = F.matrix.at' idx +
          crossFactor electric (omega ((List.ofFn (waveVector F idx)).take shape.length)) (waveVector F idx) *
            cross (waveVector F idx) B p) ∧
      (state = false → after = fields) := by
  have hall : ∀ j, ∃ S G, Needed shape.length p j → LinearAt (other j) S shape x0 h ∧
      S.ensureTransformState spl (.all true) = .ok G ∧
      (other j).aligned spl (byLinear spl) .linear shape
        ((List.range shape.length).map fun d => (x0 d, ((shape.getD d 0 : ℕ) - 1 : ℝ) * h d))
        ((List.range shape.length).map h) = .ok G := by
    intro j
    by_cases hn : Needed shape.length p j
    · obtain ⟨S, G, -, h2, h3, h4⟩ := aligned_linear hspl (hgrids j hn) (hnear j hn)
      exact ⟨S, G, fun _ => ⟨h2, h3, h4⟩⟩
    · exact ⟨main, main, fun h => absurd h hn⟩
  choose S G hSG using hall
  obtain ⟨F, r, k1, k2, k3, k4, k5, k6, k7, k8, k9, k10, k11⟩ := kspace_core (G := G) hspl (byLinear spl) omega hpres hmain hothers
    fun j hn => ⟨(hSG j hn).2.2, rfl⟩
  refine ⟨F, S, G, r, _, k1, fun j hn => ⟨(hSG j hn).1, (hSG j hn).2.1⟩, k4, k5, k6, k7, k8, k9, k10, k11, ?_⟩
  rintro rfl
  rfl

example := kspace_linear_partial lineSplines lineSplines_exact omegaFree [("Bz", field32At 1 (1 / 4)), ("Ex", field32At 0 0)]
  true 0 [3, 2] (field32At 0 0) (fun _ => field32At 1 (1 / 4)) false _ _ (fun _ => _) staggeredInput.present (field32At_grid 0 0)
  staggeredInput.othersPresent (fun _ _ => field32At_grid 1 (1 / 4)) staggeredInput.aligned

/-- C40 violated: with linear interpolation another field which is given in the frequency domain leads to a `NameError`, because
its data are complex after the transform to the spatial domain. -/
theorem kspace_linear_complex_violated (a b : ℂ) (omega : List ℝ → Option ℝ) :
    kspace lineSplines (fun f s => f.shiftLinearComplex (enumerate s)) "Ey" [("Ey", fieldFreq a), ("Bz", fieldFreq b)]
      .linear omega = .error .nameError := by
  have hg := fieldFreq_grid a
  have hgb := fieldFreq_grid b
  obtain ⟨F, e1, e2, e3⟩ := hg.ensure lineSplines_exact
  obtain rfl := e3 rfl
  obtain ⟨S, s1, s2, -⟩ := hgb.ensureSpatial lineSplines_exact
  have h1 : parseComponent "Ey" = .ok ('E', 1) := by decide
  have hdata : (((List.range [2].length).map fun d => ap ((fun _ => (0 : ℝ)) d) ((fun _ => Real.pi) d)
      ([2].getD d 0)).mapM gridData) = .ok [(0, ((2 : ℕ) - 1 : ℝ) * Real.pi)] := by
    have := gridData_ap 0 Real.pi (n := 2) (by omega)
    simp [List.range_succ, this, pure, Except.pure, bind, Except.bind]
  have hstep : (((List.range [2].length).map fun d => ap ((fun _ => (0 : ℝ)) d) ((fun _ => Real.pi) d)
      ([2].getD d 0)).mapM gridStep) = .ok [Real.pi] := by
    have := gridStep_ap 0 Real.pi (n := 2) (by omega)
    simp [List.range_succ, this, pure, Except.pure, bind, Except.bind]
  have hshape : (fieldFreq a).shape = [2] := rfl
  have hal : (fieldFreq b).aligned lineSplines (fun f s => f.shiftLinearComplex (enumerate s)) .linear [2]
      [(0, ((2 : ℕ) - 1 : ℝ) * Real.pi)] [Real.pi] = .error .nameError := by
    have hun : (fieldFreq b).unmixed lineSplines .linear = .ok (fieldFreq b) := by
      unfold Field.unmixed
      rw [hgb.collective]
      rfl
    have hd := hgb.data
    have hd' : (fieldFreq b).spatialData = .ok [(0, ((2 : ℕ) - 1 : ℝ) * Real.pi)] := by
      rw [hd]
      simp
    have hbox : allClose ([((0 : ℝ), ((2 : ℕ) - 1 : ℝ) * Real.pi)].map (·.2)) ([((0 : ℝ), ((2 : ℕ) - 1 : ℝ) * Real.pi)].map (·.2)) =
        true := by
      have := allClose_range (fun _ => ((2 : ℕ) - 1 : ℝ) * Real.pi) (fun _ => ((2 : ℕ) - 1 : ℝ) * Real.pi) 1 (by
        intro d _
        simp only [sub_self, abs_zero]
        positivity)
      simpa [List.range_succ] using this
    have hGA : GridAt S 1 (fun _ => 0) (fun _ => Real.pi) := by
      refine ⟨s2.sound, by rw [s2.size]; rfl, by omega, by omega, ?_⟩
      intro d ax hax
      have hd : d < 1 := by
        have := (List.getElem?_eq_some_iff.1 hax).1
        rwa [ok_axes_length s2.sound.ok, s2.size] at this
      obtain ⟨ax', c1, c2⟩ := s2.spatial rfl d hd
      rw [hax] at c1
      cases c1
      exact ⟨c2, Real.pi_pos⟩
    have hfail := shift_linear_complex_violated 1 _ _ S hGA [0] (by simp) (fun _ => 0)
    have hnear : (([(0 : ℝ)].zip [Real.pi]).all fun p => decide (|p.1| < 2 * p.2)) = true := by
      have := Real.pi_pos
      simp [this]
    unfold Field.aligned
    rw [hun]
    simp only [bind, Except.bind, hd']
    rw [if_neg (not_not.2 hgb.size), hbox]
    simp only [List.zip_cons_cons, List.zip_nil_right, List.map_cons, List.map_nil, sub_self, List.all_cons, List.all_nil,
      abs_zero]
    have hp : decide ((0 : ℝ) < 2 * Real.pi) = true := by
      have := Real.pi_pos
      simp [this]
    simp only [hp, s1]
    have he : enumerate [(0 : ℝ)] = [0].map fun (d : ℕ) => ((d : ℤ), (fun _ => (0 : ℝ)) d) := rfl
    rw [he, hfail]
    rfl
  unfold kspace
  rw [h1]
  simp only [bind, Except.bind]
  rw [if_neg (by decide)]
  have hk : fieldKey (decide True) 1 = some "Ey" := rfl
  have hl : List.lookup "Ey" [("Ey", fieldFreq a), ("Bz", fieldFreq b)] = some (fieldFreq a) := rfl
  simp only [hk, hl, hg.toTransform_eq, e1, e2.grids, hdata, hstep]
  unfold kspaceTerm
  have hlen : (fieldFreq a).axes.length = 1 := rfl
  have hl2 : ((fieldKey (!decide True) ((1 + 1) % 3)).bind fun key =>
      List.lookup key [("Ey", fieldFreq a), ("Bz", fieldFreq b)]) = some (fieldFreq b) := rfl
  simp only [hlen, hl2, hshape, hal, bind, Except.bind]
  rfl

end

end Postpic.Props
