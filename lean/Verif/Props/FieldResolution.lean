import Verif.Lemmas.FieldResolution
import Verif.Props.FieldReduce

/-!
# Padding, halving the resolution, derivatives
-/

set_option autoImplicit false
set_option linter.unusedSectionVars false

namespace Postpic.Props

open Postpic Postpic.Axes Postpic.Fields Postpic.Spec

/-! ## C27: padding -/

section
variable {K V : Type} [_root_.Field K] [LinearOrder K] [IsStrictOrderedRing K] [FloorRing K]

/-- C27: padding keeps every sample at its coordinates, fills the new cells with the given value,
and keeps the spacing; widths are numbers of cells or lengths. Partial: evenly spaced increasing
axes (see `pad_reversed_violated`). `eh` lists start and spacing of the axes, `p` how many cells the
widths mean. -/
theorem pad_keeps_samples_partial (spl : Splines K) (hspl : ExactOnEven spl) (f : Field K V)
    (hf : f.Sound) (hne : f.shape ≠ []) (w : List (PadWidth K × PadWidth K)) (p : List (ℕ × ℕ)) (eh : List (K × K))
    (hw : w.length = f.shape.length) (hp : p.length = f.shape.length)
    (heh : eh.length = f.shape.length)
    (h : ∀ (d : ℕ) (ax : Axis K) (wd : PadWidth K × PadWidth K) (pd : ℕ × ℕ) (x : K × K),
      f.axes[d]? = some ax → w[d]? = some wd → p[d]? = some pd → eh[d]? = some x →
      EvenAxis ax x.1 x.2 ∧ 0 < x.2 ∧ MeansCells x.2 wd.1 pd.1 ∧ MeansCells x.2 wd.2 pd.2) (c : V) :
    ∃ r, f.pad spl w c = .ok r ∧ r.name = f.name ∧ r.unit = f.unit ∧ r.ats = f.ats ∧
      r.axes.length = f.axes.length ∧
      (∀ (d : ℕ) (ax : Axis K) (pd : ℕ × ℕ) (x : K × K),
        f.axes[d]? = some ax → p[d]? = some pd → eh[d]? = some x →
        ∃ ax', r.axes[d]? = some ax' ∧ EvenAxis ax' (x.1 - pd.1 * x.2) x.2 ∧
          ax'.name = ax.name ∧ ax'.unit = ax.unit ∧
          r.shape[d]? = some (pd.1 + ax.len + pd.2) ∧ ax'.len = pd.1 + ax.len + pd.2 ∧
          ∀ i < ax.len, ax'.grid[pd.1 + i]? = ax.grid[i]?) ∧
      (∀ idx j : List ℕ, InBounds f.shape j → idx.length = f.shape.length →
        (∀ (d k : ℕ) (q : ℕ × ℕ), j[d]? = some k → p[d]? = some q → idx[d]? = some (q.1 + k)) →
        r.matrix.at' idx = f.matrix.at' j) ∧
      (∀ idx : List ℕ, idx.length = f.shape.length →
        (∃ (d i n : ℕ) (q : ℕ × ℕ), idx[d]? = some i ∧ p[d]? = some q ∧ f.shape[d]? = some n ∧
          (i < q.1 ∨ q.1 + n ≤ i)) →
        r.matrix.at' idx = c) := by
  obtain ⟨r, h1, h2, h3, h4, h5, h6, h7⟩ := pad_sound hspl hf hne hw hp heh h c
  refine ⟨r, h1, h2, h3, h4, h6, ?_, ?_, ?_⟩
  · intro d ax pd x hax hpd hx
    have hdl := (List.getElem?_eq_some_iff.1 hax).1
    have hl := ok_axes_length hf.ok
    have hwd : w[d]? = some (w[d]'(by omega)) := List.getElem?_eq_getElem _
    obtain ⟨he, -⟩ := h d ax _ pd x hax hwd hpd hx
    obtain ⟨g1, g2, g3, g4⟩ := paddedAxis_even he pd
    refine ⟨_, (h7 d ax pd x hax hpd hx).1, g1, g3, g4, ?_, g2, ?_⟩
    · have hs : f.shape[d]? = some ax.len := by
        rw [← hf.ok.lengths, List.getElem?_map, hax]; rfl
      have : r.shape = List.zipWith (fun n (q : ℕ × ℕ) => q.1 + n + q.2) f.shape p := by
        show r.matrix.shape = _
        rw [h5]
        rfl
      rw [this, List.getElem?_zipWith, hpd, hs]
    · intro i hi
      exact even_shift he g1 hi (by omega)
  · intro idx j hj hidx hh
    rw [h5]
    exact pad_inside f.matrix c hp hj hidx hh
  · rintro idx hidx ⟨d, i, n, q, a1, a2, a3, a4⟩
    rw [h5]
    exact pad_outside f.matrix c hp hidx ⟨d, i, n, q, a1, a2, a3, by omega⟩

end

/-! ## C28: resolution -/

section
variable {K V : Type} [_root_.Field K] [LinearOrder K] [IsStrictOrderedRing K] [AddCommGroup V]
  [Module K V]

/-- C28: halving the resolution along one of the first three axes with an even number of points
joins cells in pairs: half as many points, every second node remains, the extent is kept, and all
other axes and the metadata stay. -/
theorem half_resolution_axes (spl : Splines K) (f : Field K V) (hf : f.Sound) (a m : ℕ) (ax : Axis K)
    (ha : a ≤ 2) (hax : f.axes[a]? = some ax) (hm : ax.len = 2 * m) (hm0 : 0 < m) :
    ∃ r ax', f.halfResolution spl a = .ok r ∧ r.axes = f.axes.set a ax' ∧
      r.shape = f.shape.set a m ∧ ax'.len = m ∧ ax'.extent = ax.extent ∧
      (∀ i, ax'.gridNode[i]? = ax.gridNode[2 * i]?) ∧
      ax'.name = ax.name ∧ ax'.unit = ax.unit ∧ r.name = f.name ∧ r.unit = f.unit ∧
      r.ats = f.ats := by
  obtain ⟨r, ax', h1, h2, h3, h4, h5, h6, h7, h8, h9, h10, h11, h12, _⟩ :=
    half_sound spl hf ha hax (by omega)
  have hv := hf.valid ax (List.mem_of_getElem? hax)
  have hv' := h2.valid ax' (by rw [h3]; exact List.mem_set (List.getElem?_eq_some_iff.1 hax).1 ax')
  have hdiv : ax.len / 2 = m := by omega
  refine ⟨r, ax', h1, h3, by rw [h9, hdiv], by rw [h5, hdiv], ?_, ?_, h7, h8, h10, h11, h12⟩
  · have hl : ax.gridNode.length = 2 * m + 1 := by rw [← hm]; exact hv.wf.1
    have hl' : ax'.gridNode.length = m + 1 := by
      have : ax'.gridNode.length = ax'.grid.length + 1 := hv'.wf.1
      rw [this]
      show ax'.len + 1 = m + 1
      omega
    have e1 := hv.first
    have e2 := hv.last
    have g1 := hv'.first
    have g2 := hv'.last
    rw [List.head?_eq_getElem?] at e1 g1
    rw [List.getLast?_eq_getElem?] at e2 g2
    rw [hl] at e2
    rw [hl'] at g2
    rw [h6, evens_get] at g1 g2
    have k1 : some ax'.extent.1 = some ax.extent.1 := by rw [← g1, ← e1]
    have k2 : some ax'.extent.2 = some ax.extent.2 := by rw [← g2, ← e2]; rfl
    exact Prod.ext (Option.some.inj k1) (Option.some.inj k2)
  · intro i
    rw [h6, evens_get]

/-- C28: the integral over any set of dimensions which contains the halved one is kept, if the
cells which are joined have equal sizes (otherwise see `half_resolution_integral_violated`). -/
theorem half_resolution_integral_partial (spl : Splines K) (f : Field K V) (hf : f.Sound) (a m : ℕ)
    (ax : Axis K) (ha : a ≤ 2) (hax : f.axes[a]? = some ax) (hm : ax.len = 2 * m) (hm0 : 0 < m)
    (hc : ∀ i < m, (cellSizes ax)[2 * i]? = (cellSizes ax)[2 * i + 1]?) (dims : List ℕ)
    (hd : ∀ i ∈ dims, i < f.shape.length) (hda : a ∈ dims) :
    ∃ r s t, f.halfResolution spl a = .ok r ∧ f.integrateFast (dims.map Int.ofNat) = .ok s ∧
      r.integrateFast (dims.map Int.ofNat) = .ok t ∧ t.shape = s.shape ∧ t.axes = s.axes ∧
      ∀ idx, InBounds s.shape idx → t.matrix.at' idx = s.matrix.at' idx := by
  obtain ⟨r, ax', h1, h2, h3, h4, h5, h6, h7, h8, h9, h10, h11, h12, _⟩ :=
    half_sound spl hf ha hax (by omega)
  obtain ⟨s, g1, g2, g3, g4, g5, g6⟩ := integrate_fast_partial f hf dims hd
  have hlen : r.shape.length = f.shape.length := by rw [h9, List.length_set]
  obtain ⟨t, k1, k2, k3, k4, k5, k6⟩ := integrate_fast_partial r h2 dims (by rw [hlen]; exact hd)
  rw [hlen] at k2 k3 k6
  have hun : ∀ {α : Type} (l : List α) (v : α), l.length = f.shape.length →
      unflagged (flags f.shape.length dims) (l.set a v) = unflagged (flags f.shape.length dims) l := by
    intro α l v hl
    have hal : a < f.shape.length := hd a hda
    have hfl : flags f.shape.length dims =
        (flags (f.shape.length - 1) ((dims.filter (· ≠ a)).map (shiftDown a))).insertIdx a true := by
      rw [← flags_insert (by omega) (by simp)]
      apply flags_congr
      intro d
      by_cases hd : d = a
      · simp [hd, hda]
      · simp [hd]
    rw [hfl, unflagged_insert (by rw [List.length_set]; omega) (by rw [flags_length]; omega),
      unflagged_insert (by omega) (by rw [flags_length]; omega), List.eraseIdx_set_eq]
  have hshape : t.shape = s.shape := by rw [k2, g2, h9, hun _ _ rfl]
  refine ⟨r, s, t, h1, g1, k1, hshape, ?_, ?_⟩
  · rw [k3, g3, h3, hun _ _ (ok_axes_length hf.ok)]
  · intro idx hidx
    have hl : idx.length = s.shape.length := hidx.1
    rw [k6 idx (by rw [hl, hshape]), g6 idx hl]
    apply half_integral spl hf ha hax hm hm0 hc h1 hda
    rw [hl, g2]
    apply unflagged_count
    rw [flags_length]

/-- C28: `autoreduce` with a positive length ends for every field with at most three dimensions, and
then no axis is longer than requested. The number of rounds along an axis is at most its length.
(A negative length never ends, see `autoreduce_negative_violated`.) -/
theorem autoreduce_ends (spl : Splines K) (f : Field K V) (hf : f.Sound)
    (h3 : f.shape.length ≤ 3) (maxlen : ℤ) (hm : 1 ≤ maxlen) (fuel : ℕ)
    (hfuel : ∀ n ∈ f.shape, n < fuel) :
    ∃ r, f.autoreduce spl maxlen fuel = some (.ok r) ∧ r.axes.map Axis.len = r.shape ∧
      r.shape.length = f.shape.length ∧ ∀ n ∈ r.shape, 0 < n ∧ (n : ℤ) ≤ maxlen := by
  have hl := ok_axes_length hf.ok
  obtain ⟨r, h1, h2, h4, _, h6⟩ := reduceLoop_sound spl hm fuel (L := List.range f.axes.length)
    (f := f) (by intro i hi; rw [List.mem_range] at hi; omega) hf
    (by intro i hi; rw [List.mem_range] at hi; omega) hfuel
  refine ⟨r, h1, h2.ok.lengths, h4, ?_⟩
  intro n hn
  obtain ⟨d, hd⟩ := List.mem_iff_getElem?.1 hn
  have hdl := (List.getElem?_eq_some_iff.1 hd).1
  refine ⟨Nat.pos_of_ne_zero ?_, h6 d (by rw [List.mem_range]; omega) n hd⟩
  rintro rfl
  exact h2.nonempty hn

/-! ## C51: staggered derivative -/

/-- C51: the staggered derivative along an evenly spaced increasing axis is the difference quotient
of neighbouring samples, given at the points in the middle between them; the other axes stay.
Partial: decreasing axes give the wrong sign, see `derivative_reversed_violated`. -/
theorem derivative_partial (spl : Splines K) (hspl : ExactOnEven spl) (f : Field K V) (hf : f.Sound)
    (h3 : f.shape.length ≤ 3) (a : ℤ) (k : ℕ) (ax : Axis K) (e0 h : K)
    (ha : pyIdx f.shape.length a = some k) (hax : f.axes[k]? = some ax) (he : EvenAxis ax e0 h)
    (hh : 0 < h) (hn : 2 ≤ ax.len) :
    ∃ r ax', f.derivativeStagger spl a = .ok r ∧ r.axes = f.axes.set k ax' ∧
      r.shape = f.shape.set k (ax.len - 1) ∧ ax'.len = ax.len - 1 ∧
      (∀ (i : ℕ) (x y : K), ax.grid[i]? = some x → ax.grid[i + 1]? = some y →
        ax'.grid[i]? = some ((x + y) / 2)) ∧
      ∀ (idx : List ℕ) (i : ℕ) (x y : K), InBounds r.shape idx → idx[k]? = some i →
        ax.grid[i]? = some x → ax.grid[i + 1]? = some y →
        r.matrix.at' idx = (y - x)⁻¹ • (f.matrix.at' (idx.set k (i + 1)) - f.matrix.at' idx) := by
  obtain ⟨r, ax', h1, h2, h3, h4, _, _, _, _, h9, _, h11⟩ := derivative_sound hspl hf h3 ha hax he hh hn
  obtain ⟨_, e2, _⟩ := even_iff.1 he
  have hxy : ∀ (i : ℕ) (x y : K), ax.grid[i]? = some x → ax.grid[i + 1]? = some y →
      i + 1 < ax.len ∧ x = e0 + h / 2 + i * h ∧ y = e0 + h / 2 + (i + 1) * h := by
    intro i x y hx hy
    have hi : i + 1 < ax.len := (List.getElem?_eq_some_iff.1 hy).1
    rw [e2, ap_get _ _ _ _ (by omega)] at hx
    rw [e2, ap_get _ _ _ _ hi] at hy
    have hx := Option.some.inj hx
    have hy := Option.some.inj hy
    push_cast at hy
    exact ⟨hi, hx.symm, hy.symm⟩
  refine ⟨r, ax', h1, h3, h4, by rw [Axis.len, h9, ap_length], ?_, ?_⟩
  · intro i x y hx hy
    obtain ⟨hi, rfl, rfl⟩ := hxy i x y hx hy
    rw [h9, ap_get _ _ _ _ (by omega)]
    congr 1
    field_simp
    ring
  · intro idx i x y hidx hi hx hy
    obtain ⟨_, rfl, rfl⟩ := hxy i x y hx hy
    rw [h11]
    have e : idx.modify k (· + 1) = idx.set k (i + 1) := by
      apply List.ext_getElem?
      intro d
      rw [List.getElem?_modify, List.getElem?_set]
      have := (List.getElem?_eq_some_iff.1 hi).1
      by_cases hd : k = d
      · subst hd
        rw [hi, if_pos rfl, if_pos this]
        simp
      · simp [hd]
    have e' : (e0 + h / 2 + (i + 1) * h) - (e0 + h / 2 + i * h) = h := by ring
    simp only
    rw [e, e']

/-- C51: integrating the derivative gives the difference between the last and the first sample.
Partial: at least three samples (see `derivative_two_points_violated`). -/
theorem derivative_telescopes_partial (spl : Splines K) (hspl : ExactOnEven spl) (f : Field K V)
    (hf : f.Sound) (h3 : f.shape.length ≤ 3) (k : ℕ) (ax : Axis K) (e0 h : K)
    (hk : k < f.shape.length) (hax : f.axes[k]? = some ax) (he : EvenAxis ax e0 h) (hh : 0 < h)
    (hn : 3 ≤ ax.len) :
    ∃ r s, f.derivativeStagger spl k = .ok r ∧ r.integrateFast [(k : ℤ)] = .ok s ∧
      s.shape = f.shape.eraseIdx k ∧
      ∀ idx, InBounds s.shape idx → s.matrix.at' idx =
        f.matrix.at' (idx.insertIdx k (ax.len - 1)) - f.matrix.at' (idx.insertIdx k 0) := by
  obtain ⟨r, ax', h1, h2, g3, h4, _, _, _, _, h9, h10, h11⟩ :=
    derivative_sound hspl hf h3 (pyIdx_nat hk) hax he hh (by omega)
  have hl := ok_axes_length hf.ok
  have hlen : r.shape.length = f.shape.length := by rw [h4, List.length_set]
  obtain ⟨s, k1, _, _, _, k2, _, _, _, k6⟩ := integrateFast_sound h2 (L := [k]) (by simpa [hlen] using hk)
  have hfl0 : flags f.shape.length [k] = (flags (f.shape.length - 1) []).insertIdx k true :=
    flags_insert hk (by simp)
  rw [hlen] at k2 k6
  have hshape : s.shape = f.shape.eraseIdx k := by
    rw [k2, hfl0, unflagged_insert (by omega) (by rw [flags_length]; omega), unflagged_none, h4,
      List.eraseIdx_set_eq]
    rw [List.length_eraseIdx_of_lt (by omega), hlen]
  refine ⟨r, s, h1, k1, hshape, ?_⟩
  intro idx hidx
  have hil : idx.length = f.shape.length - 1 := by
    have : idx.length = s.shape.length := hidx.1
    rw [this, hshape, List.length_eraseIdx_of_lt hk]
  have hlen' : ax'.len = ax.len - 1 := by rw [Axis.len, h9, ap_length]
  have hget : (r.axes.map cellSizes).getD k [] = cellSizes ax' := by
    rw [g3, List.getD_eq_getElem?_getD, List.getElem?_map, List.getElem?_set_self (by omega)]
    rfl
  have hrl : r.axes.length = f.shape.length := by rw [g3, List.length_set, hl]
  have hcl : (cellSizes ax').length = ax.len - 1 := by
    rw [cellSizes_length (h2.valid ax' (by rw [g3]; exact List.mem_set (by omega) ax')), hlen']
  rw [k6 idx hidx.1, hfl0, integral_insert _ (by rw [flags_length, List.length_map]; omega)
    (by rw [flags_length]; omega)]
  · have := integral_none ((r.axes.map cellSizes).eraseIdx k) (fun j =>
      ∑ i ∈ Finset.range ((r.axes.map cellSizes).getD k []).length,
        ((r.axes.map cellSizes).getD k []).getD i 0 • r.matrix.at' (j.insertIdx k i)) idx
      (by rw [List.length_eraseIdx_of_lt (by simpa [hrl] using hk), List.length_map]; omega)
    rw [List.length_eraseIdx_of_lt (by simpa [hrl] using hk), List.length_map, hrl] at this
    rw [this, hget, hcl]
    have hterm : ∀ i ∈ Finset.range (ax.len - 1), (cellSizes ax').getD i 0 • r.matrix.at' (idx.insertIdx k i) =
        f.matrix.at' (idx.insertIdx k (i + 1)) - f.matrix.at' (idx.insertIdx k i) := by
      intro i hi
      rw [even_cells (h10 hn) (by rw [hlen']; simpa using hi), h11]
      simp only [insertIdx_modify]
      rw [smul_smul, mul_inv_cancel₀ hh.ne', one_smul]
    rw [Finset.sum_congr rfl hterm, Finset.sum_range_sub (fun i => f.matrix.at' (idx.insertIdx k i))]
  · rw [hil]
    have := unflagged_count (sel := flags (f.shape.length - 1) []) (l := s.shape)
      (by rw [flags_length, hshape, List.length_eraseIdx_of_lt hk])
    rw [unflagged_none _ _ (by rw [hshape, List.length_eraseIdx_of_lt hk]), hshape,
      List.length_eraseIdx_of_lt hk] at this
    exact this

end

/-! ## Examples and violations -/

theorem midSplines_exact : ExactOnEven midSplines :=
  ⟨fun a h n _ => (mids_ap a h n).trans (centers_ap a h n).symm,
    fun a h n _ => (mids_ap a h n).trans (centers_ap a h n).symm⟩

theorem uniform_even (e0 h : ℚ) (n : ℕ) (hn : 0 < n) :
    EvenAxis (uniformAxis e0 (e0 + n * h) n) e0 h := by
  have hnk : (n : ℚ) ≠ 0 := by exact_mod_cast hn.ne'
  have e1 : linspace e0 (e0 + n * h) (n + 1) = ap e0 h (n + 1) := by
    rw [linspace_ap]
    congr 1
    field_simp
    ring
  have e2 : (uniformAxis e0 (e0 + n * h) n).len = n := by
    simp only [uniformAxis, Axis.len, e1, mids_ap, ap_length]
  rw [even_iff, e2]
  simp only [uniformAxis, e1, mids_ap]
  exact ⟨trivial, trivial, trivial⟩

/-- The hypotheses of `pad_keeps_samples_partial` hold for `field43`, with widths in cells and as
lengths. -/
example := pad_keeps_samples_partial midSplines midSplines_exact field43 field43_sound (by decide)
  [(.cells 1, .length (3 / 2)), (.length 3, .cells 0)] [(1, 2), (2, 0)] [(0, 1), (0, 2)] rfl rfl rfl
  (by
    have h1 := uniform_even 0 1 4 (by decide)
    have h2 := uniform_even 0 2 3 (by decide)
    norm_num at h1 h2
    intro d ax wd pd x hax hwd hpd hx
    match d with
    | 0 =>
      obtain rfl : uniformAxis 0 4 4 = ax := by simpa [field43] using hax
      obtain rfl := Option.some.inj hwd
      obtain rfl := Option.some.inj hpd
      obtain rfl := Option.some.inj hx
      refine ⟨h1, by norm_num, by norm_num [MeansCells], by norm_num [MeansCells]⟩
    | 1 =>
      obtain rfl : uniformAxis 0 6 3 = ax := by simpa [field43] using hax
      obtain rfl := Option.some.inj hwd
      obtain rfl := Option.some.inj hpd
      obtain rfl := Option.some.inj hx
      refine ⟨h2, by norm_num, by norm_num [MeansCells], by norm_num [MeansCells]⟩
    | d + 2 => simp [field43] at hax) 7

example : ((field43.pad midSplines [(.cells 1, .length (3 / 2)), (.length 3, .cells 0)] 7).map
    fun r => (r.shape, r.axes.map (·.extent), values r)) =
    .ok ([7, 5], [(-1, 6), (-4, 6)],
      [7, 7, 7, 7, 7, 7, 7, 0, 1, 2, 7, 7, 100, 101, 102, 7, 7, 200, 201, 202, 7, 7, 300, 301, 302,
        7, 7, 7, 7, 7, 7, 7, 7, 7, 7]) := by
  decide +kernel

/-- A field with 4 points on an axis from 4 to 0 (decreasing). -/
def fieldDown : Field ℚ ℚ :=
  ⟨"f", "", ⟨[4], fun idx => (idx.getD 0 0 : ℚ)⟩, [uniformAxis 4 0 4], [some false], [none]⟩

theorem fieldDown_sound : fieldDown.Sound := by
  refine ⟨⟨by decide +kernel, by decide, by decide⟩, ?_, by decide⟩
  intro ax hax
  simp only [fieldDown, List.mem_singleton] at hax
  subst hax
  exact uniform_wf (by norm_num) (by norm_num)

/-- C27 fails on decreasing axes: one new cell at each end shrinks the extent, so the samples get
other coordinates. -/
theorem pad_reversed_violated :
    ((fieldDown.pad midSplines [(.cells 1, .cells 1)] 0).map fun r =>
      (values r, r.axes.map fun ax => (ax.extent, ax.grid))) =
      .ok ([0, 0, 1, 2, 3, 0], [((3, 1), [17 / 6, 5 / 2, 13 / 6, 11 / 6, 3 / 2, 7 / 6])]) ∧
    fieldDown.axes.map (·.grid) = [[7 / 2, 5 / 2, 3 / 2, 1 / 2]] := by
  decide +kernel

example := half_resolution_integral_partial midSplines field43 field43_sound 0 2 (uniformAxis 0 4 4)
  (by decide) rfl (by decide +kernel) (by decide) (by decide +kernel) [1, 0] (by decide) (by decide)

example : ((field43.halfResolution midSplines 0).map fun r =>
    (r.shape, values r, r.axes.map (·.extent))) =
    .ok ([2, 3], [50, 51, 52, 250, 251, 252], [(0, 4), (0, 6)]) := by
  decide +kernel

/-- A field with 2 points and cells of different size. -/
def fieldUneven : Field ℚ ℚ :=
  ⟨"f", "", ⟨[2], fun idx => (idx.getD 0 0 : ℚ)⟩, [⟨"x", "", [0, 1, 4], [1 / 2, 2], (0, 4)⟩],
    [some false], [none]⟩

/-- C28 (integral) fails for cells of different sizes: the values are averaged without weights. -/
theorem half_resolution_integral_violated :
    ((fieldUneven.integrateFast [0]).map values) = .ok [3] ∧
    ((fieldUneven.halfResolution midSplines 0).bind fun r => (r.integrateFast [0]).map values) =
      .ok [2] := by
  decide +kernel

/-- With an odd number of points the last cell is lost (as documented). -/
example :
    ((field43.halfResolution midSplines 1).map fun r => r.axes.map (·.extent)) =
      .ok [(0, 4), (0, 4)] := by
  decide +kernel

/-- Axes after the third one are refused. -/
example : ((field43.halfResolution midSplines 3).map values) = .error .keyError := by
  decide +kernel

example := autoreduce_ends midSplines field43 field43_sound (by decide) 2 (by decide) 5 (by decide)

example : (field43.autoreduce midSplines 2 5).map (fun r => r.map fun r => r.shape) =
    some (.ok [2, 1]) := by
  decide +kernel

/-- Halving an empty axis gives an empty axis, and this is repeated as long as its length is larger
than `maxlen`. -/
theorem halve_empty (fuel : ℕ) (maxlen : ℤ) (hm : maxlen < 0) (f : Field ℚ ℚ)
    (hs : f.matrix.shape = [0]) (hax : f.axes = [⟨"x", "", [0], [], (0, 0)⟩]) :
    halveLoop midSplines maxlen 0 fuel f = none := by
  induction fuel generalizing f with
  | zero => rfl
  | succ fuel ih =>
    obtain ⟨name, unit, ⟨shape, at'⟩, axes, ats, tao⟩ := f
    simp only at hs hax
    subst hs hax
    have hstep : ∃ g, (⟨name, unit, ⟨[0], at'⟩, [⟨"x", "", [0], [], (0, 0)⟩], ats, tao⟩ :
        Field ℚ ℚ).halfResolution midSplines 0 = .ok g ∧ g.matrix.shape = [0] ∧
        g.axes = [⟨"x", "", [0], [], (0, 0)⟩] := by
      have hh : (⟨"x", "", [0], [], (0, 0)⟩ : Axis ℚ).halfResolution midSplines =
          .ok ⟨"x", "", [0], [], (0, 0)⟩ := by decide +kernel
      refine ⟨⟨name, unit, ⟨[0], fun idx => (1 / 2 : ℚ) • (at' (idx.modify 0 fun k => 2 * k) +
        at' (idx.modify 0 fun k => 2 * k + 1))⟩, [⟨"x", "", [0], [], (0, 0)⟩], ats, tao.set 0 none⟩,
        ?_, rfl, rfl⟩
      unfold Field.halfResolution
      rw [if_neg (by omega)]
      simp only [Field.shape, List.getElem?_cons_zero, hh, bind, Except.bind]
      rfl
    obtain ⟨g, h1, h2, h3⟩ := hstep
    unfold halveLoop
    simp only [List.getElem?_cons_zero]
    rw [if_pos (by simpa [Axis.len] using hm), h1]
    exact ih g h2 h3

/-- A negative length: a field with a single point never gets shorter than that and the loop goes on
with an empty axis, however many rounds are allowed. -/
theorem autoreduce_negative_violated (fuel : ℕ) :
    (⟨"f", "", ⟨[1], fun _ => 5⟩, [⟨"x", "", [0, 1], [1 / 2], (0, 1)⟩], [some false], [none]⟩ :
      Field ℚ ℚ).autoreduce midSplines (-1) fuel = none := by
  cases fuel with
  | zero => rfl
  | succ fuel =>
    have hh : (⟨"x", "", [0, 1], [1 / 2], (0, 1)⟩ : Axis ℚ).halfResolution midSplines =
        .ok ⟨"x", "", [0], [], (0, 0)⟩ := by decide +kernel
    have hstep : ∃ g, (⟨"f", "", ⟨[1], fun _ => 5⟩, [⟨"x", "", [0, 1], [1 / 2], (0, 1)⟩],
        [some false], [none]⟩ : Field ℚ ℚ).halfResolution midSplines 0 = .ok g ∧
        g.matrix.shape = [0] ∧ g.axes = [⟨"x", "", [0], [], (0, 0)⟩] := by
      refine ⟨⟨"f", "", ⟨[0], fun _ => (1 / 2 : ℚ) • (5 + 5)⟩, [⟨"x", "", [0], [], (0, 0)⟩],
        [some false], [none]⟩, ?_, rfl, rfl⟩
      unfold Field.halfResolution
      rw [if_neg (by omega)]
      simp only [Field.shape, List.getElem?_cons_zero, hh, bind, Except.bind]
      rfl
    obtain ⟨g, h1, h2, h3⟩ := hstep
    simp only [Field.autoreduce, List.length_singleton, List.range_one, reduceLoop]
    unfold halveLoop
    simp only [List.getElem?_cons_zero]
    rw [if_pos (by simp [Axis.len]), h1]
    simp only
    rw [halve_empty fuel (-1) (by norm_num) g h2 h3]

example := derivative_partial midSplines midSplines_exact field43 field43_sound (by decide) (-2) 0
  (uniformAxis 0 4 4) 0 1 rfl rfl (by have := uniform_even 0 1 4 (by decide); norm_num at this; exact this)
  (by norm_num) (by decide +kernel)

example := derivative_telescopes_partial midSplines midSplines_exact field43 field43_sound (by decide) 0
  (uniformAxis 0 4 4) 0 1 (by decide) rfl
  (by have := uniform_even 0 1 4 (by decide); norm_num at this; exact this)
  (by norm_num) (by decide +kernel)

/-- C51 fails on a decreasing axis: the samples 0, 1, 2, 3 at 3.5, 2.5, 1.5, 0.5 have the derivative
-1, the method returns 1. -/
theorem derivative_reversed_violated :
    ((fieldDown.derivativeStagger midSplines 0).map fun r => (values r, r.axes.map (·.grid))) =
      .ok ([1, 1, 1], [[3, 2, 1]]) := by
  decide +kernel

/-- C51 fails for two samples: the derivative 1/2 at a single point gets a cell of size 1, so the
integral is 1/2 and not the difference 1 of the samples. -/
theorem derivative_two_points_violated :
    (((⟨"f", "", ⟨[2], fun idx => (idx.getD 0 0 : ℚ)⟩, [uniformAxis 0 4 2], [some false], [none]⟩ :
      Field ℚ ℚ).derivativeStagger midSplines 0).bind fun r => (r.integrateFast [0]).map values) =
      .ok [1 / 2] := by
  decide +kernel

end Postpic.Props
