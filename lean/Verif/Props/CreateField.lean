import Verif.Lemmas.CreateField
import Verif.Props.FieldReduce
import Verif.Props.FieldResolution

/-!
# C62, C63, C64: distribution functions of a collection of particles (`createField`)
-/

set_option autoImplicit false
set_option linter.unusedSectionVars false

namespace Postpic.Props

open Postpic Postpic.Axes Postpic.Fields Postpic.Histogram Postpic.Io Postpic.Spec Postpic.Particles

section
variable {S K : Type} [_root_.Field K] [LinearOrder K] [IsStrictOrderedRing K] [FloorRing K]

/-- `r` is the smallest range which contains all the ranges of the list. -/
def ExtentMeans (l : List (K × K)) (r : K × K) : Prop :=
  (∃ e ∈ l, e.1 = r.1) ∧ (∃ e ∈ l, e.2 = r.2) ∧ ∀ e ∈ l, r.1 ≤ e.1 ∧ e.2 ≤ r.2

/-- What the arguments of `createField` mean: the collection has the weights `w`, the scalars are
the dimensions `ds` with these ranges and numbers of bins, the particle shape is `s`. All particles
lie within the ranges or clearly outside. With `simextent` the range is the common extent of the simulations, otherwise
the range given, where missing ends are the smallest and largest coordinate. -/
structure Call (spacing : K → K) (c : Collection S K) (sps : List S) (a : CreateArgs S K) (s : Shape)
    (ds : List (Dim K)) (w : List K) : Prop where
  particles : w ≠ []
  one : 1 ≤ ds.length
  three : ds.length ≤ 3
  ok : ∀ d ∈ ds, d.Ok spacing s w.length
  coords : List.Forall₂ (fun sp d => c.eval sp = .ok d.coords) sps ds
  weights : c.weight a.weights = .ok w
  ranges : a.simextent = false → ∀ (k : ℕ) (d : Dim K), ds[k]? = some d →
    ∃ o, [a.rangex, a.rangey, a.rangez][k]? = some o ∧ ArgMeans o d
  extents : a.simextent = true → ∀ (k : ℕ) (sp : S) (d : Dim K), sps[k]? = some sp → ds[k]? = some d →
    ∃ l, c.extents sp = l.map .ok ∧ ExtentMeans l d.range
  simgrid : a.simgrid = false
  bins : BinsMean (ds.map Dim.bins) a.bins
  shape : Shape.ofCode (a.shape.getD 2) = some s

theorem mapM_id_ok {α : Type} (l : List α) : (l.map (Except.ok : α → Res α)).mapM id = .ok l := by
  induction l with
  | nil => rfl
  | cons a l ih =>
    rw [List.map_cons, List.mapM_cons, ih]
    rfl

theorem simextent_ok (c : Collection S K) (sp : S) (l : List (K × K)) (r : K × K)
    (hl : c.extents sp = l.map .ok) (hm : ExtentMeans l r) : simextent c sp = .ok r := by
  obtain ⟨⟨e, he, he'⟩, ⟨f, hf, hf'⟩, hall⟩ := hm
  obtain ⟨lo, hlo, hlo1, hlo2⟩ := npMin_spec (l.map (·.1)) (by
    intro h0
    rw [List.map_eq_nil_iff] at h0
    simp [h0] at he)
  obtain ⟨hi, hhi, hhi1, hhi2⟩ := npMax_spec (l.map (·.2)) (by
    intro h0
    rw [List.map_eq_nil_iff] at h0
    simp [h0] at he)
  rw [List.mem_map] at hlo1 hhi1
  obtain ⟨g, hg, rfl⟩ := hlo1
  obtain ⟨k, hk, rfl⟩ := hhi1
  have e1 : g.1 = r.1 := le_antisymm (by rw [← he']; exact hlo2 _ (List.mem_map.2 ⟨e, he, rfl⟩)) (hall g hg).1
  have e2 : k.2 = r.2 := le_antisymm (hall k hk).2 (by rw [← hf']; exact hhi2 _ (List.mem_map.2 ⟨f, hf, rfl⟩))
  unfold simextent
  rw [hl, mapM_id_ok]
  simp only [bind, Except.bind, hlo, hhi, pure, Except.pure, e1, e2]

theorem setRanges_ok (c : Collection S K) (sps : List S) (ds : List (Dim K))
    (rs : List (Option (End K × End K))) (hl : sps.length = ds.length) (hr : ds.length ≤ rs.length)
    (h : ∀ (k : ℕ) (sp : S) (d : Dim K), sps[k]? = some sp → ds[k]? = some d → simextent c sp = .ok d.range) :
    ∃ rs', setRanges c sps rs = .ok rs' ∧ ∀ (k : ℕ) (d : Dim K), ds[k]? = some d →
      rs'[k]? = some (some (some d.range.1, some d.range.2)) := by
  induction sps generalizing ds rs with
  | nil =>
    have : ds = [] := List.eq_nil_of_length_eq_zero (by simpa using hl.symm)
    subst this
    exact ⟨rs, by cases rs <;> rfl, by simp⟩
  | cons sp sps ih =>
    match ds, rs, hl, hr with
    | d :: ds, r :: rs, hl, hr =>
      obtain ⟨rs', h1, h2⟩ := ih ds rs (by simpa using hl) (by simpa using hr)
        (fun k sp' d' a b => h (k + 1) sp' d' a b)
      refine ⟨some (some d.range.1, some d.range.2) :: rs', ?_, ?_⟩
      · unfold setRanges
        rw [h 0 sp d rfl rfl, h1]
        rfl
      · intro k d' hk
        cases k with
        | zero => simp at hk; subst hk; rfl
        | succ k => exact h2 k d' hk

theorem call_field {spl : Splines K} (hspl : ExactOnEven spl) {spacing : K → K}
    {c : Collection S K} {sps : List S} {a : CreateArgs S K} {s : Shape} {ds : List (Dim K)} {w : List K}
    (h : Call spacing c sps a s ds w) :
    ∃ m, createField spl spacing c sps a = .ok
        ⟨⟨fieldName c a, "", m, (sps.zip ds).map fun p =>
            dimAxis (findAttr (c.scalarName p.1)) (findAttr (c.scalarUnit p.1)) p.2,
          m.shape.map fun _ => some false, m.shape.map fun _ => none⟩, some c.species,
          toString c.npart ++ " npart in " ++ toString c.nspecies ++ " species"⟩ ∧
      m.shape = ds.map Dim.bins ∧
      ∀ idx, InBounds (ds.map Dim.bins) idx → m.at' idx = density s ds w idx := by
  have hd : sps.mapM c.eval = .ok (ds.map Dim.coords) := by
    apply mapM_of_forall2
    rw [List.forall₂_map_right_iff]
    exact h.coords
  have hl : sps.length = ds.length := h.coords.length_eq
  have hb : usedBins c sps a = .ok a.bins := by simp [usedBins, h.simgrid]
  by_cases hs : a.simextent = true
  · obtain ⟨rs', h1, h2⟩ := setRanges_ok c sps ds [a.rangex, a.rangey, a.rangez] hl h.three (by
      intro k sp d hk1 hk2
      obtain ⟨l, e1, e2⟩ := h.extents hs k sp d hk1 hk2
      exact simextent_ok c sp l d.range e1 e2)
    refine createField_density hspl h.particles h.ok h.one h.three hd h.weights
      (ranges := rs') (bins := a.bins) ?_ hb ?_ h.bins h.shape
    · simp [usedRanges, hs, h1]
    · intro k d hk
      refine ⟨_, h2 k d hk, ?_, ?_, ?_, ?_⟩ <;> simp
  · simp only [Bool.not_eq_true] at hs
    exact createField_density hspl h.particles h.ok h.one h.three hd h.weights
      (ranges := [a.rangex, a.rangey, a.rangez]) (bins := a.bins)
      (by simp [usedRanges, hs, h.simgrid]) hb (h.ranges hs) h.bins h.shape

theorem dims_field_sound {spacing : K → K} {s : Shape} {w : List K} {ds : List (Dim K)}
    (hok : ∀ d ∈ ds, d.Ok spacing s w.length) (f g : S → String) (sps : List S) (hl : sps.length = ds.length)
    (name : String) (m : Arr K) (hm : m.shape = ds.map Dim.bins) :
    (⟨name, "", m, (sps.zip ds).map fun p => dimAxis (f p.1) (g p.1) p.2,
      m.shape.map fun _ => some false, m.shape.map fun _ => none⟩ : Fields.Field K K).Sound := by
  refine ⟨⟨?_, by simp [Field.shape], by simp [Field.shape]⟩, ?_, ?_⟩
  · show _ = m.shape
    rw [hm]
    exact zipAxes_lens f g sps ds hl
  · intro ax hax
    rw [List.mem_map] at hax
    obtain ⟨p, hp, rfl⟩ := hax
    exact even_valid' (evenAxisOf_even _ _ _ _ _) (cell_ne (hok p.2 (List.of_mem_zip hp).2))
  · show 0 ∉ m.shape
    rw [hm, List.mem_map]
    rintro ⟨d, hd, h0⟩
    exact (hok d hd).pos.ne' h0

/-! ## C62: values and axes -/

/-- C62: the field has one axis per scalar, with the name and unit of the scalar, and the requested
range and number of bins; its values are the weight of the particles per volume. Partial: no
particle is just outside of a range (see `createField_outside_violated`) and there are particles (see `createField_empty_violated`). -/
theorem createField_partial {spl : Splines K} (hspl : ExactOnEven spl) {spacing : K → K}
    {c : Collection S K} {sps : List S} {a : CreateArgs S K} {s : Shape} {ds : List (Dim K)} {w : List K}
    (h : Call spacing c sps a s ds w) :
    ∃ F, createField spl spacing c sps a = .ok F ∧ F.field.Sound ∧ F.field.shape = ds.map Dim.bins ∧
      (∀ (k : ℕ) (sp : S) (d : Dim K), sps[k]? = some sp → ds[k]? = some d →
        ∃ ax, F.field.axes[k]? = some ax ∧ EvenAxis ax d.range.1 d.cell ∧
          ax.extent = d.range ∧
          ax.name = (c.scalarName sp).getD "unknown" ∧ ax.unit = (c.scalarUnit sp).getD "unknown") ∧
      F.label = some c.species ∧
      ∀ idx, InBounds F.field.shape idx → F.field.matrix.at' idx = density s ds w idx := by
  obtain ⟨m, h1, h2, h3⟩ := call_field hspl h
  refine ⟨_, h1, dims_field_sound h.ok (fun sp => findAttr (c.scalarName sp))
    (fun sp => findAttr (c.scalarUnit sp)) sps h.coords.length_eq _ m h2, h2, ?_, rfl, ?_⟩
  · intro k sp d hk1 hk2
    refine ⟨dimAxis (findAttr (c.scalarName sp)) (findAttr (c.scalarUnit sp)) d, ?_,
      evenAxisOf_even _ _ _ _ _, ?_, rfl, rfl⟩
    · have hz : (sps.zip ds)[k]? = some (sp, d) := List.getElem?_zip_eq_some.2 ⟨hk1, hk2⟩
      rw [List.getElem?_map, hz]
      rfl
    · have hd := h.ok d (List.mem_of_getElem? hk2)
      have hn : (d.bins : K) ≠ 0 := by exact_mod_cast hd.pos.ne'
      show (d.range.1, d.range.1 + d.bins * d.cell) = d.range
      have : d.range.1 + d.bins * d.cell = d.range.2 := by
        unfold Dim.cell
        field_simp
        ring
      rw [this]
  · intro idx hidx
    apply h3
    rw [← h2]
    exact hidx

/-! ## C63: integrals -/

/-- C63: integrating the distribution function over some of its axes gives the distribution function
over the others, if no particle shape reaches over the ends of these axes. Partial: the methods
`fast` and `constant`, axes given by non-negative numbers. -/
theorem createField_marginal_partial {spl : Splines K} (hspl : ExactOnEven spl) {spacing : K → K}
    {c : Collection S K} {sps : List S} {a : CreateArgs S K} {s : Shape} {ds : List (Dim K)} {w : List K}
    (h : Call spacing c sps a s ds w) (dims : List ℕ) (hd : ∀ i ∈ dims, i < ds.length)
    (hin : ∀ i ∈ dims, ∀ d : Dim K, ds[i]? = some d → d.AllInside s) :
    ∃ F r r', createField spl spacing c sps a = .ok F ∧
      F.field.integrateFast (dims.map Int.ofNat) = .ok r ∧
      F.field.integrateConstant spl (dims.map Int.ofNat) = .ok r' ∧ r.Same r' ∧
      r.axes = unflagged (flags ds.length dims) F.field.axes ∧
      r.shape = unflagged (flags ds.length dims) (ds.map Dim.bins) ∧
      ∀ idx, InBounds r.shape idx →
        r.matrix.at' idx = density s (unflagged (flags ds.length dims) ds) w idx := by
  obtain ⟨m, h1, h2, h3⟩ := call_field hspl h
  have hl := h.coords.length_eq
  have hsound := dims_field_sound h.ok (fun sp => findAttr (c.scalarName sp))
    (fun sp => findAttr (c.scalarUnit sp)) sps hl (fieldName c a) m h2
  set f : Fields.Field K K := ⟨fieldName c a, "", m, (sps.zip ds).map fun p =>
            dimAxis (findAttr (c.scalarName p.1)) (findAttr (c.scalarUnit p.1)) p.2,
          m.shape.map fun _ => some false, m.shape.map fun _ => none⟩ with hf
  have hsh : f.shape = ds.map Dim.bins := h2
  have hlen : f.shape.length = ds.length := by rw [hsh, List.length_map]
  have hd' : ∀ i ∈ dims, i < f.shape.length := by rw [hlen]; exact hd
  obtain ⟨r, r', g1, g2, g3⟩ := integrate_fast_eq_constant_partial spl f hsound
    (by rw [hlen]; exact h.three) dims hd'
  obtain ⟨q, q1, q2, q3, _, _, q6⟩ := integrate_fast_partial f hsound dims hd'
  rw [g1] at q1
  cases q1
  rw [hlen, hsh] at q2
  rw [hlen] at q3
  refine ⟨_, r, r', h1, g1, g2, g3, q3, q2, ?_⟩
  intro idx hidx
  rw [q6 idx hidx.1, hlen]
  have hboxes : f.axes.map cellSizes = ds.map fun d => List.replicate d.bins d.cell :=
    zipAxes_sizes (fun sp => findAttr (c.scalarName sp)) (fun sp => findAttr (c.scalarUnit sp)) sps ds hl
  have hul : idx.length = (unflagged (flags ds.length dims) ds).length := by
    rw [hidx.1, q2, unflagged_count (by rw [flags_length, List.length_map]),
      unflagged_count (flags_length _ _).symm]
  have hcongr : integral (f.axes.map cellSizes) (flags ds.length dims) f.matrix.at' idx =
      integral (f.axes.map cellSizes) (flags ds.length dims) (density s ds w) idx := by
    have hbl : (f.axes.map cellSizes).map List.length = ds.map Dim.bins := by
      rw [hboxes, List.map_map]
      apply List.map_congr_left
      intro d _
      simp
    apply integral_congr
    · rw [flags_length, List.length_map]
      exact hlen.symm.trans (ok_axes_length hsound.ok).symm
    · rw [hbl]
      exact h3
    · rw [hbl, ← q2]
      exact hidx
  rw [hcongr, hboxes]
  apply integral_density (spacing := spacing) s w ds _ (flags_length _ _) h.ok
  · intro k d hk1 hk2
    apply hin k ?_ d hk2
    rw [flags_get _ _ _ (List.getElem?_eq_some_iff.1 hk2).1] at hk1
    simpa using hk1
  · exact hul

theorem density_nil (s : Shape) (w : List K) : density s ([] : List (Dim K)) w [] = w.sum := by
  unfold density
  simp only [fraction, mul_one, List.map_nil, List.prod_nil, div_one]
  rw [← range_sum]
  congr 1
  apply List.ext_getElem
  · simp
  · intro i h1 h2
    simp at h1
    simp [List.getD_eq_getElem?_getD, h1]

/-- C63: the integral over all axes is the sum of the weights of the particles, if no particle shape
reaches over the ends of the axes. -/
theorem createField_total_partial {spl : Splines K} (hspl : ExactOnEven spl) {spacing : K → K}
    {c : Collection S K} {sps : List S} {a : CreateArgs S K} {s : Shape} {ds : List (Dim K)} {w : List K}
    (h : Call spacing c sps a s ds w) (hin : ∀ d ∈ ds, d.AllInside s) :
    ∃ F r r', createField spl spacing c sps a = .ok F ∧
      F.field.integrateFast ((List.range ds.length).map Int.ofNat) = .ok r ∧
      F.field.integrateConstant spl ((List.range ds.length).map Int.ofNat) = .ok r' ∧
      r.shape = [] ∧ r.matrix.at' [] = w.sum ∧ r'.shape = [] ∧ r'.matrix.at' [] = w.sum := by
  obtain ⟨F, r, r', h1, h2, h3, h4, h5, h6, h7⟩ := createField_marginal_partial hspl h (List.range ds.length)
    (by simp) (fun i _ d hd => hin d (List.mem_of_getElem? hd))
  have hall : ∀ {α : Type} (l : List α), l.length = ds.length →
      unflagged (flags ds.length (List.range ds.length)) l = [] := by
    intro α l hl
    apply List.eq_nil_of_length_eq_zero
    rw [unflagged_count (by rw [flags_length, hl]), flags_all, List.count_replicate]
    rfl
  rw [hall _ (by simp)] at h6
  have h8 := h7 [] (by rw [h6]; exact ⟨rfl, by simp⟩)
  rw [hall _ rfl, density_nil] at h8
  refine ⟨F, r, r', h1, h2, h3, h6, h8, ?_, ?_⟩
  · exact h4.1.1.trans h6
  · have hs : r'.matrix.shape = [] := h4.1.1.trans h6
    have hb : InBounds r'.matrix.shape [] := by
      rw [hs]
      exact ⟨rfl, by simp⟩
    rw [h4.1.2 [] hb, h8]

/-- C63: integrating over some scalars gives the field created from the other scalars alone. -/
theorem createField_projection_partial {spl : Splines K} (hspl : ExactOnEven spl) {spacing : K → K}
    {c : Collection S K} {sps sps' : List S} {a a' : CreateArgs S K} {s : Shape} {ds : List (Dim K)}
    {w : List K} (h : Call spacing c sps a s ds w) (dims : List ℕ) (hd : ∀ i ∈ dims, i < ds.length)
    (hin : ∀ i ∈ dims, ∀ d : Dim K, ds[i]? = some d → d.AllInside s)
    (h' : Call spacing c sps' a' s (unflagged (flags ds.length dims) ds) w) :
    ∃ F r F', createField spl spacing c sps a = .ok F ∧
      F.field.integrateFast (dims.map Int.ofNat) = .ok r ∧
      createField spl spacing c sps' a' = .ok F' ∧ F'.field.shape = r.shape ∧
      ∀ idx, InBounds r.shape idx → r.matrix.at' idx = F'.field.matrix.at' idx := by
  obtain ⟨F, r, r', h1, h2, -, -, -, h6, h7⟩ := createField_marginal_partial hspl h dims hd hin
  obtain ⟨F', g1, -, g3, -, -, g6⟩ := createField_partial hspl h'
  have hs : F'.field.shape = r.shape := by
    rw [g3, h6]
    have : ∀ (sel : List Bool) (l : List (Dim K)),
        (unflagged sel l).map Dim.bins = unflagged sel (l.map Dim.bins) := by
      intro sel
      induction sel with
      | nil => intro l; rfl
      | cons b sel ih =>
        intro l
        cases l with
        | nil => rfl
        | cons d l => cases b <;> simp [unflagged, ih]
    exact this _ _
  refine ⟨F, r, F', h1, h2, g1, hs, ?_⟩
  intro idx hidx
  rw [h7 idx hidx, g6 idx (by rw [hs]; exact hidx)]

/-- The particles of two lists together. -/
def joinDims (ds es : List (Dim K)) : List (Dim K) :=
  List.zipWith (fun d e => ⟨d.range, d.bins, d.coords ++ e.coords⟩) ds es

theorem fraction_join (s : Shape) (N M : ℕ) (ds es : List (Dim K))
    (h : List.Forall₂ (fun d e : Dim K => d.range = e.range ∧ d.bins = e.bins) ds es)
    (hd : ∀ d ∈ ds, d.coords.length = N) (idx : List ℕ) (p : ℕ) :
    fraction s (joinDims ds es) idx p = if p < N then fraction s ds idx p else fraction s es idx (p - N) := by
  induction h generalizing idx with
  | nil =>
    simp [joinDims, fraction]
  | @cons d e ds es hde _ ih =>
    cases idx with
    | nil => simp [joinDims, fraction]
    | cons i idx =>
      have hl := hd d (by simp)
      have := ih (fun x hx => hd x (by simp [hx])) idx
      unfold joinDims at this ⊢
      simp only [List.zipWith_cons_cons, fraction, this, Dim.scaledPos]
      by_cases hp : p < N
      · rw [if_pos hp, if_pos hp]
        congr 4
        rw [List.getD_append _ _ _ _ (by omega)]
      · rw [if_neg hp, if_neg hp, hde.1, hde.2]
        congr 4
        rw [List.getD_append_right _ _ _ _ (by omega), hl]

/-- C62: the distribution function of two lists of particles together is the sum of their distribution
functions (same ranges, bins and shape). -/
theorem createField_additive_partial {spl : Splines K} (hspl : ExactOnEven spl) {spacing : K → K}
    {c₁ c₂ c : Collection S K} {sps : List S} {a₁ a₂ a : CreateArgs S K} {s : Shape}
    {ds es : List (Dim K)} {v w : List K}
    (h₁ : Call spacing c₁ sps a₁ s ds v) (h₂ : Call spacing c₂ sps a₂ s es w)
    (hsame : List.Forall₂ (fun d e : Dim K => d.range = e.range ∧ d.bins = e.bins) ds es)
    (h : Call spacing c sps a s (joinDims ds es) (v ++ w)) :
    ∃ F₁ F₂ F, createField spl spacing c₁ sps a₁ = .ok F₁ ∧ createField spl spacing c₂ sps a₂ = .ok F₂ ∧
      createField spl spacing c sps a = .ok F ∧ F₁.field.shape = F.field.shape ∧
      F₂.field.shape = F.field.shape ∧
      ∀ idx, InBounds F.field.shape idx →
        F.field.matrix.at' idx = F₁.field.matrix.at' idx + F₂.field.matrix.at' idx := by
  obtain ⟨F₁, e1, -, e3, -, -, e6⟩ := createField_partial hspl h₁
  obtain ⟨F₂, f1, -, f3, -, -, f6⟩ := createField_partial hspl h₂
  obtain ⟨F, g1, -, g3, -, -, g6⟩ := createField_partial hspl h
  have hb : (joinDims ds es).map Dim.bins = ds.map Dim.bins ∧ (joinDims ds es).map Dim.cell = ds.map Dim.cell ∧
      es.map Dim.bins = ds.map Dim.bins ∧ es.map Dim.cell = ds.map Dim.cell := by
    clear h₁ h₂ h e3 f3 g3 e6 f6 g6
    induction hsame with
    | nil => simp [joinDims]
    | @cons d e ds es hde _ ih =>
      unfold joinDims at ih ⊢
      obtain ⟨i1, i2, i3, i4⟩ := ih
      refine ⟨?_, ?_, ?_, ?_⟩
      · simp [i1]
      · simp [i2, Dim.cell]
      · simp [i3, hde.2]
      · simp [i4, Dim.cell, hde.1, hde.2]
  have s1 : F₁.field.shape = F.field.shape := by rw [e3, g3, hb.1]
  have s2 : F₂.field.shape = F.field.shape := by rw [f3, g3, hb.1, hb.2.2.1]
  refine ⟨F₁, F₂, F, e1, f1, g1, s1, s2, ?_⟩
  intro idx hidx
  rw [g6 idx hidx, e6 idx (by rw [s1]; exact hidx), f6 idx (by rw [s2]; exact hidx)]
  unfold density
  rw [hb.2.1, hb.2.2.2, ← add_div]
  congr 1
  rw [List.length_append, Finset.sum_range_add]
  congr 1
  · apply Finset.sum_congr rfl
    intro p hp
    have hp := Finset.mem_range.1 hp
    rw [fraction_join s v.length w.length ds es hsame (fun d hd => (h₁.ok d hd).len), if_pos hp,
      List.getD_append _ _ _ _ hp]
  · apply Finset.sum_congr rfl
    intro p hp
    rw [fraction_join s v.length w.length ds es hsame (fun d hd => (h₁.ok d hd).len), if_neg (by omega),
      List.getD_append_right _ _ _ _ (by omega)]
    simp

/-- C62: without negative weights the values are not negative, provided the ranges are given from the
lower to the upper end. -/
theorem createField_nonneg_partial {spl : Splines K} (hspl : ExactOnEven spl) {spacing : K → K}
    {c : Collection S K} {sps : List S} {a : CreateArgs S K} {s : Shape} {ds : List (Dim K)} {w : List K}
    (h : Call spacing c sps a s ds w) (hw : ∀ x ∈ w, 0 ≤ x) (hr : ∀ d ∈ ds, d.range.1 < d.range.2) :
    ∃ F, createField spl spacing c sps a = .ok F ∧
      ∀ idx, InBounds F.field.shape idx → 0 ≤ F.field.matrix.at' idx := by
  obtain ⟨F, g1, -, g3, -, -, g6⟩ := createField_partial hspl h
  refine ⟨F, g1, ?_⟩
  intro idx hidx
  rw [g6 idx hidx]
  unfold density
  have hf : ∀ (ds : List (Dim K)) (idx : List ℕ) (p : ℕ), 0 ≤ fraction s ds idx p := by
    intro ds
    induction ds with
    | nil => intro idx p; simp [fraction]
    | cons d ds ih =>
      intro idx p
      cases idx with
      | nil => simp [fraction]
      | cons i idx => exact mul_nonneg (W_nonneg _ _) (ih idx p)
  apply div_nonneg
  · apply Finset.sum_nonneg
    intro p hp
    refine mul_nonneg ?_ (hf _ _ _)
    have hp := Finset.mem_range.1 hp
    rw [List.getD_eq_getElem?_getD, List.getElem?_eq_getElem hp]
    exact hw _ (List.getElem_mem hp)
  · apply List.prod_nonneg
    intro x hx
    rw [List.mem_map] at hx
    obtain ⟨d, hd, rfl⟩ := hx
    exact div_nonneg (sub_nonneg.2 (hr d hd).le) (Nat.cast_nonneg _)

/-! ## C64: options -/

/-- C64: the name of the field is the title if there is one (which is not empty), otherwise the `name` (without weights) or
the name of the weights, followed by the species. -/
theorem createField_name_partial {spl : Splines K} {spacing : K → K} {c : Collection S K} {sps : List S}
    {a : CreateArgs S K} {F : LField K K} (h : createField spl spacing c sps a = .ok F) :
    (∀ t, a.title = some t → t ≠ "" → F.field.name = t) ∧
    (a.title = none ∨ a.title = some "" → a.weights = none → F.field.name = a.name ++ c.species) ∧
    (∀ w n, a.title = none ∨ a.title = some "" → a.weights = some w → c.scalarName w = some n → F.field.name = n ++ c.species) := by
  have hn : F.field.name = fieldName c a := by
    unfold createField at h
    obtain ⟨x, -, h⟩ := bind_ok h
    obtain ⟨y, -, h⟩ := bind_ok h
    obtain ⟨z, -, h⟩ := bind_ok h
    simp only [pure, Except.pure, Except.ok.injEq] at h
    rw [← h]
  rw [hn]
  unfold fieldName
  refine ⟨?_, ?_, ?_⟩
  · intro t ht ht'
    simp [ht, ht']
  · intro ht hw
    rcases ht with ht | ht <;> simp [ht, hw]
  · intro w n ht hw hc
    rcases ht with ht | ht <;> simp [ht, hw, hc, findAttr]

/-- C64: more than three scalars are refused; without `force` so is a scalar which does not exist. -/
theorem createField_refused (spl : Splines K) (spacing : K → K) (c : Collection S K) (sps : List S) (a : CreateArgs S K) :
    (3 < sps.length → createField spl spacing c sps a = .error .typeError) ∧
    (a.force = false → (∃ sp ∈ sps, c.eval sp = .error .keyError) → (∀ sp ∈ sps, ∀ e, c.eval sp = .error e → e = .keyError) →
      sps.length ≤ 3 → createField spl spacing c sps a = .error .keyError) := by
  refine ⟨fun h => ?_, fun hf hm he h3 => ?_⟩
  · unfold createField createHistogram
    rw [if_pos h]
    rfl
  · have key : ∀ l : List S, (∃ sp ∈ l, c.eval sp = .error .keyError) → (∀ sp ∈ l, ∀ e, c.eval sp = .error e → e = .keyError) →
        l.mapM c.eval = .error .keyError := by
      intro l
      induction l with
      | nil => intro hm _; simp at hm
      | cons sp l ih =>
        intro hm he
        rw [List.mapM_cons]
        cases hs : c.eval sp with
        | error e =>
          rw [he sp (by simp) e hs]
          rfl
        | ok v =>
          rw [ih ?_ fun x hx => he x (by simp [hx])]
          · rfl
          · obtain ⟨x, hx, hx'⟩ := hm
            rcases List.mem_cons.1 hx with rfl | hx
            · rw [hs] at hx'; cases hx'
            · exact ⟨x, hx, hx'⟩
    unfold createField createHistogram histData
    rw [if_neg (by omega), key sps hm he, hf]
    rfl

/-- C64 (`simgrid` should enforce the grid of the simulation): whatever numbers of grid points the
readers report, the numbers of bins are not changed, so that `simgrid` has the same effect as
`simextent`. -/
theorem createField_simgrid_ignored (spl : Splines K) (spacing : K → K) (c : Collection S K)
    (sps : List S) (a : CreateArgs S K) (g : S → ℕ) (hg : ∀ sp, c.gridpoints sp = .ok (g sp)) :
    createField spl spacing c sps { a with simgrid := true } =
      createField spl spacing c sps { a with simgrid := false, simextent := true } := by
  have hb : ∀ (l : List S) (i : ℕ) (b : BinsArg), setBins c i l b = .ok b := by
    intro l
    induction l with
    | nil => intro i b; rfl
    | cons sp l ih =>
      intro i b
      unfold setBins
      simp only [simgridpoints, hg, bind, Except.bind, pure, Except.pure, ih]
  have e : createHistogram spacing c sps { a with simgrid := true } =
      createHistogram spacing c sps { a with simgrid := false, simextent := true } := by
    unfold createHistogram usedRanges usedBins
    simp only [hb, Bool.true_or, Bool.or_true, if_true, Bool.false_eq_true, if_false]
  unfold createField
  rw [e]
  rfl

/-- C64: without particles a histogram with one or two axes is refused instead of being empty, for all
numbers of bins from 2 (3) on, and so is every one with a single number of bins for all axes or with the
default number of bins. -/
theorem createField_empty_violated (spl : Splines K) (spacing : K → K) (c : Collection S K) (sp sq : S)
    (hp : c.eval sp = .ok []) (hq : c.eval sq = .ok []) (n m : ℕ) (hn : 3 ≤ n) :
    createField spl spacing c [sp] { bins := .many [n] } = .error .indexError ∧
    createField spl spacing c [sp, sq] { bins := .many [n, m] } = .error .indexError ∧
    createField spl spacing c [sp] { bins := .int n } = .error .typeError ∧
    createField spl spacing c [sp] {} = .error .typeError := by
  obtain ⟨k, rfl⟩ : ∃ k, n = k + 3 := ⟨n - 3, by omega⟩
  have h1 : histData c false [sp] = .ok [[]] := by
    simp [histData, List.mapM_cons, hp, bind, Except.bind, pure, Except.pure]
  have h2 : histData c false [sp, sq] = .ok [[], []] := by
    simp [histData, List.mapM_cons, hp, hq, bind, Except.bind, pure, Except.pure]
  refine ⟨?_, ?_, ?_, ?_⟩
  · simp [createField, createHistogram, h1, usedRanges, usedBins, emptyHistogram, emptyEdges, createEdges,
      binAt, bind, Except.bind, pure, Except.pure]
  · simp [createField, createHistogram, h2, usedRanges, usedBins, emptyHistogram, emptyEdges, createEdges,
      binAt, bind, Except.bind, pure, Except.pure]
  · simp [createField, createHistogram, h1, usedRanges, usedBins, emptyHistogram, bind, Except.bind]
  · simp [createField, createHistogram, h1, usedRanges, usedBins, emptyHistogram, bind, Except.bind]

/-- C64: without particles, or when a scalar does not exist and `force` is given, a histogram with three
axes is zero everywhere; the axes have the given ranges, or `(0, 1)`. Partial: only with three axes, at
least 3 bins along the first one, and the numbers of bins given as a list. -/
theorem createField_empty_partial {spl : Splines K} (hspl : ExactOnEven spl) (spacing : K → K)
    (c : Collection S K) (sps : List S) (a : CreateArgs S K) (n m k : ℕ) (hn : 3 ≤ n) (hm : 0 < m) (hk : 0 < k)
    (hsps : sps.length = 3)
    (hd : (∃ l, sps.mapM c.eval = .ok ([] :: l)) ∨ (a.force = true ∧ sps.mapM c.eval = .error .keyError))
    (hb : a.bins = .many [n, m, k]) (hs : a.simextent = false) (hg : a.simgrid = false)
    (rx ry rz : K × K) (hx : a.rangex = some (some rx.1, some rx.2)) (hx' : rx.1 ≠ rx.2)
    (hy : a.rangey = some (some ry.1, some ry.2)) (hy' : ry.1 ≠ ry.2)
    (hz : a.rangez = none ∧ rz = (0, 1) ∨ a.rangez = some (some rz.1, some rz.2) ∧ rz.1 ≠ rz.2) :
    ∃ F, createField spl spacing c sps a = .ok F ∧ F.field.shape = [n, m, k] ∧
      (F.field.axes.map fun ax => ax.extent) = [rx, ry, rz] ∧
      ∀ idx, F.field.matrix.at' idx = 0 := by
  obtain ⟨n', rfl⟩ : ∃ k, n = k + 3 := ⟨n - 3, by omega⟩
  have hz' : rz.1 ≠ rz.2 := by
    rcases hz with ⟨_, rfl⟩ | ⟨_, h⟩
    · simp
    · exact h
  have hdata : ∃ l, histData c a.force sps = .ok ([] :: l) := by
    rcases hd with ⟨l, hl⟩ | ⟨hf, he⟩
    · exact ⟨l, by simp [histData, hl]⟩
    · exact ⟨[], by simp [histData, he, hf]⟩
  obtain ⟨l, hl⟩ := hdata
  have hez : createEdges a.rangez k = .ok (linspace rz.1 rz.2 (k + 1)) := by
    rcases hz with ⟨h, rfl⟩ | ⟨h, _⟩ <;> rw [h] <;> rfl
  have hh : createHistogram spacing c sps a = .ok (⟨[n' + 3, m, k], fun _ => 0⟩,
      [linspace rx.1 rx.2 (n' + 3 + 1), linspace ry.1 ry.2 (m + 1), linspace rz.1 rz.2 (k + 1)]) := by
    unfold createHistogram
    rw [if_neg (by omega)]
    simp only [hl, usedRanges, usedBins, hs, hg, hb, bind, Except.bind, Bool.or_self, Bool.false_eq_true,
      if_false, emptyHistogram, List.take_succ_cons, hx, hy]
    simp only [emptyEdges, binAt, bind, Except.bind, List.getElem?_cons_zero, List.getElem?_cons_succ,
      createEdges, pure, Except.pure]
    have hez' := hez
    unfold createEdges at hez'
    simp only [List.take_nil, emptyEdges]
    rw [hez']
  let ds : List (Dim K) := [⟨rx, n' + 3, []⟩, ⟨ry, m, []⟩, ⟨rz, k, []⟩]
  have hds : ∀ d ∈ ds, Gridded d := by
    intro d hd
    simp only [ds, List.mem_cons, List.not_mem_nil, or_false] at hd
    rcases hd with rfl | rfl | rfl
    · exact ⟨by simp, hx'⟩
    · exact ⟨hm, hy'⟩
    · exact ⟨hk, hz'⟩
  have hf := fieldFromEdges_even hspl hds (by simp [ds]) (by simp [ds]) ⟨[n' + 3, m, k], fun _ => 0⟩ rfl
  have hedges : (ds.map fun d => binEdges d.range d.bins) =
      [linspace rx.1 rx.2 (n' + 3 + 1), linspace ry.1 ry.2 (m + 1), linspace rz.1 rz.2 (k + 1)] := by
    simp only [ds, List.map_cons, List.map_nil, binEdges_ap, linspace_ap]
  rw [hedges] at hf
  have hla := labelAxes_zip c sps ds ["x", "y", "z"] (by simp [ds, hsps]) (by simp [ds])
  refine ⟨_, by
    unfold createField
    rw [hh]
    simp only [bind, Except.bind, hf, hla, pure, Except.pure]
    rfl, rfl, ?_, fun _ => rfl⟩
  have hext : ∀ (nm un : String) (d : Dim K), Gridded d → (dimAxis nm un d).extent = d.range := by
    intro nm un d hd
    have hn : (d.bins : K) ≠ 0 := by exact_mod_cast hd.1.ne'
    show (d.range.1, d.range.1 + d.bins * d.cell) = d.range
    have : d.range.1 + d.bins * d.cell = d.range.2 := by
      unfold Dim.cell
      field_simp
      ring
    rw [this]
  match sps, hsps with
  | [p, q, r], _ =>
    simp only [ds, List.zip_cons_cons, List.zip_nil_right, List.map_cons, List.map_nil]
    rw [hext _ _ _ (hds _ (by simp [ds])), hext _ _ _ (hds _ (by simp [ds])),
      hext _ _ _ (hds _ (by simp [ds]))]

end

/-! ## Examples -/

/-- Two particles with weights 2 and 3 in a box of 4 by 2. -/
def twoParticles : Collection String ℚ where
  eval s := if s = "x" then .ok [3 / 2, 9 / 4] else if s = "y" then .ok [1, 3 / 4] else .error .keyError
  weight _ := .ok [2, 3]
  extents s := if s = "x" then [.ok (0, 3), .ok (1, 4)] else if s = "y" then [.ok (0, 2)] else [.error .keyError]
  gridpoints _ := .ok 4
  scalarName s := if s = "x" then some "x" else none
  scalarUnit s := if s = "x" then some "m" else none
  species := "electron"
  npart := 2
  nspecies := 1

example (spl : Splines ℚ) : createField spl (fun _ => 1 / 1000) twoParticles ["x", "nothing"] {} = .error .keyError :=
  (createField_refused spl _ twoParticles ["x", "nothing"] {}).2 rfl ⟨"nothing", by simp, rfl⟩ (by
    intro sp hsp e he
    simp only [List.mem_cons, List.not_mem_nil, or_false] at hsp
    rcases hsp with rfl | rfl
    · cases he
    · cases he; rfl) (by decide)

/-- The same without particles. -/
def noParticles : Collection String ℚ := { twoParticles with eval := fun _ => .ok [], weight := fun _ => .ok [] }

theorem twoParticles_call : Call (fun _ => (1 / 1000 : ℚ)) twoParticles ["x", "y"]
    { rangex := some (some 0, some 4), rangey := some (some 0, some 2), bins := .many [4, 2], shape := some 1 }
    .tophat [⟨(0, 4), 4, [3 / 2, 9 / 4]⟩, ⟨(0, 2), 2, [1, 3 / 4]⟩] [2, 3] where
  particles := by simp
  one := by simp
  three := by simp
  ok := by
    intro d hd
    simp only [List.mem_cons, List.not_mem_nil, or_false] at hd
    rcases hd with rfl | rfl
    · refine ⟨⟨by norm_num, by norm_num⟩, by norm_num, by norm_num, rfl, ?_⟩
      intro x hx
      simp at hx
      rcases hx with rfl | rfl <;> simp only [Clear, scaled] <;> norm_num
    · refine ⟨⟨by norm_num, by norm_num⟩, by norm_num, by norm_num, rfl, ?_⟩
      intro x hx
      simp at hx
      rcases hx with rfl | rfl <;> simp only [Clear, scaled] <;> norm_num
  coords := by simp [twoParticles]
  weights := rfl
  ranges := by
    intro _ k d hk
    match k, hk with
    | 0, hk =>
      simp at hk
      subst hk
      exact ⟨_, rfl, by simp [ArgMeans]⟩
    | 1, hk =>
      simp at hk
      subst hk
      exact ⟨_, rfl, by simp [ArgMeans]⟩
  extents := by simp
  simgrid := rfl
  bins := rfl
  shape := rfl

/-- The hypotheses of the theorems about integrals are met as well. -/
example : ∀ d ∈ ([⟨(0, 4), 4, [3 / 2, 9 / 4]⟩, ⟨(0, 2), 2, [1, 3 / 4]⟩] : List (Dim ℚ)),
    d.AllInside .tophat := by
  intro d hd
  simp only [List.mem_cons, List.not_mem_nil, or_false] at hd
  rcases hd with rfl | rfl <;> intro x hx <;> simp at hx <;> rcases hx with rfl | rfl <;>
    simp only [Inside, InRange, scaled, radius] <;> norm_num

/-- With `simextent` the range along x is (0, 4), which covers both extents. -/
theorem twoParticles_simextent : Call (fun _ => (1 / 1000 : ℚ)) twoParticles ["x"]
    { simextent := true, bins := .int 4 } .triangle [⟨(0, 4), 4, [3 / 2, 9 / 4]⟩] [2, 3] where
  particles := by simp
  one := by simp
  three := by simp
  ok := by
    intro d hd
    simp only [List.mem_cons, List.not_mem_nil, or_false] at hd
    subst hd
    refine ⟨⟨by norm_num, by norm_num⟩, by norm_num, by norm_num, rfl, ?_⟩
    intro x hx
    simp at hx
    rcases hx with rfl | rfl <;> simp only [Clear, scaled] <;> norm_num
  coords := by simp [twoParticles]
  weights := rfl
  ranges := by simp
  extents := by
    intro _ k sp d hk1 hk2
    match k, hk1, hk2 with
    | 0, hk1, hk2 =>
      simp at hk1 hk2
      subst hk1 hk2
      refine ⟨[(0, 3), (1, 4)], by simp [twoParticles], ⟨(0, 3), by simp, rfl⟩, ⟨(1, 4), by simp, rfl⟩, ?_⟩
      intro e he
      simp at he
      rcases he with rfl | rfl <;> norm_num
  simgrid := rfl
  bins := by simp [BinsMean]
  shape := rfl

example : ((createField midSplines (fun _ => 1 / 1000) twoParticles ["x", "y"]
    { rangex := some (some 0, some 4), rangey := some (some 0, some 2), bins := .many [4, 2],
      shape := some 1 }).map fun F => (F.field.name, values F.field)) =
    .ok ("distfnelectron", [0, 0, 25 / 16, 19 / 16, 27 / 16, 9 / 16, 0, 0]) := by decide +kernel

example : ((createField midSplines (fun _ => 1 / 1000) twoParticles ["x", "y"]
    { rangex := some (some 0, some 4), rangey := some (some 0, some 2), bins := .many [4, 2],
      shape := some 1 }).map fun F => F.field.axes.map fun ax => (ax.name, ax.unit, ax.extent)) =
    .ok [("x", "m", 0, 4), ("unknown", "unknown", 0, 2)] := by decide +kernel

/-- C64 fails: with `simgrid` the readers' number of grid points (4) is not used; and without `bins`
there are 800 bins. -/
theorem createField_simgrid_violated :
    (createField midSplines (fun _ => 1 / 1000) twoParticles ["x"]
      { simgrid := true, bins := .many [2] }).map (fun F => F.field.shape) = .ok [2] ∧
    simgridpoints twoParticles "x" = .ok none ∧ twoParticles.gridpoints "x" = .ok 4 := by
  decide +kernel

/-- C64 fails: `simextent` cannot be used with a scalar which is not a position, even if the other axis
is one. -/
theorem createField_simextent_violated :
    (createField midSplines (fun _ => 1 / 1000)
      { twoParticles with eval := fun s => if s = "px" then .ok [1, 2] else twoParticles.eval s } ["x", "px"]
      { simextent := true, bins := .many [2, 2] }).map (fun F => F.field.shape) = .error .keyError := by
  decide +kernel

/-- C64 fails: the argument `name` has no effect if there are additional weights. -/
theorem createField_name_violated :
    (createField midSplines (fun _ => 1 / 1000) twoParticles ["x"]
      { name := "density", weights := some "1", bins := .many [2] }).map (fun F => F.field.name) =
      .ok "unknownelectron" := by
  decide +kernel

/-- A range which only one of the particles is in, the other one is 3/2 cells below. -/
theorem twoParticles_range : Call (fun _ => (1 / 1000 : ℚ)) twoParticles ["x"]
    { rangex := some (some 2, some 3), bins := .many [3] } .triangle [⟨(2, 3), 3, [3 / 2, 9 / 4]⟩] [2, 3] where
  particles := by simp
  one := by simp
  three := by simp
  ok := by
    intro d hd
    simp only [List.mem_cons, List.not_mem_nil, or_false] at hd
    subst hd
    refine ⟨⟨by norm_num, by norm_num⟩, by norm_num, by norm_num, rfl, ?_⟩
    intro x hx
    simp at hx
    rcases hx with rfl | rfl <;> simp only [Clear, scaled] <;> norm_num
  coords := by simp [twoParticles]
  weights := rfl
  ranges := by
    intro _ k d hk
    match k, hk with
    | 0, hk =>
      simp at hk
      subst hk
      exact ⟨_, rfl, by simp [ArgMeans]⟩
  extents := by simp
  simgrid := rfl
  bins := rfl
  shape := rfl

/-- C62 fails for particles just below the range: a single particle of weight 2, half a cell below the range, gives the first
cell a negative value. -/
theorem createField_outside_violated :
    (createField midSplines (fun _ => 1 / 1000)
      { twoParticles with eval := fun _ => .ok [3 / 2], weight := fun _ => .ok [2] } ["x"]
      { rangex := some (some 2, some 4), bins := .many [2] }).map (fun F => (F.field.shape, values F.field)) =
      .ok ([2], [-1 / 2, 1 / 4]) ∧
    density .triangle [⟨(2, 4), 2, [3 / 2]⟩] [(2 : ℚ)] [0] = 1 / 4 := by
  constructor
  · decide +kernel
  · decide +kernel

/-- The hypotheses of `createField_empty_violated` are met. -/
example : (createField midSplines (fun _ => 1 / 1000) noParticles ["x"] { bins := .many [5] }).map
    (fun F => F.field.shape) = .error .indexError := by decide +kernel

/-- A histogram with three axes without particles. -/
example : ((createField midSplines (fun _ => 1 / 1000) noParticles ["x", "y", "z"]
    { rangex := some (some 0, some 3), rangey := some (some 0, some 2), bins := .many [3, 1, 2] }).map
    fun F => (F.field.shape, values F.field, F.field.axes.map (·.extent))) =
    .ok ([3, 1, 2], [0, 0, 0, 0, 0, 0], [(0, 3), (0, 2), (0, 1)]) := by decide +kernel

end Postpic.Props
