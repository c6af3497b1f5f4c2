import Mathlib.Algebra.BigOperators.Intervals
import Mathlib.Algebra.BigOperators.Field
import Mathlib.Algebra.BigOperators.Ring.List
import Verif.Model.CreateField
import Verif.Spec.Deposit
import Verif.Props.Histogramdd
import Verif.Lemmas.FieldResolution
import Verif.Lemmas.FieldReduce

/-!
# Lemmas: `createField`
-/

set_option autoImplicit false
set_option linter.unusedSectionVars false

namespace Postpic.Particles

open Postpic Postpic.Axes Postpic.Fields Postpic.Histogram Postpic.Io Postpic.Spec Postpic.Props

section
variable {K : Type} [_root_.Field K] [LinearOrder K] [IsStrictOrderedRing K] [FloorRing K]

/-! ### The axes -/

theorem ap_anti (a : K) {h : K} (hh : h < 0) (m : ℕ) : (ap a h m).Pairwise (· > ·) := by
  unfold ap
  rw [List.pairwise_map]
  refine List.pairwise_lt_range.imp ?_
  intro i j hij
  have : (i : K) < j := by exact_mod_cast hij
  have := mul_lt_mul_of_neg_right this hh
  simp only [gt_iff_lt]
  linarith

theorem even_valid' {ax : Axis K} {e0 h : K} (he : EvenAxis ax e0 h) (hh : h ≠ 0) :
    ValidAxis ax.gridNode ax.grid ax.extent := by
  rcases lt_or_gt_of_ne hh with hh | hh
  · obtain ⟨h1, h2, h3⟩ := even_iff.1 he
    refine ⟨?_, ?_, ?_⟩
    · rw [h1, h2, wf_iff, ← mids_ap]
      right
      exact interleave_mids mid_gt (mono_of_pairwise (ap_anti _ hh _))
        (by intro hn; have := congrArg List.length hn; simp [ap_length] at this)
    · rw [h1, h3, ap_head]
    · rw [h1, h3, ap_last]
  · exact even_valid he hh

theorem mkAxis_nodes_even {spl : Splines K} (hspl : ExactOnEven spl) (name unit : String) {e0 h : K}
    {n : ℕ} (hn : 0 < n) (hh : h ≠ 0) :
    mkAxis spl { name := name, unit := unit, gridNode := some (ap e0 h (n + 1)) } =
      .ok (evenAxisOf name unit e0 h n) := by
  have hg : gridOfNodes spl (ap e0 h (n + 1)) = .ok (ap (e0 + h / 2) h n) := by
    unfold gridOfNodes
    split_ifs with h3
    · have := hspl.centers e0 h n hn
      rw [centers_ap] at this
      rw [← this]
      rfl
    · have hl := ap_length e0 h (n + 1)
      rw [← mids_ap]
      match hx : ap e0 h (n + 1), hl with
      | a :: b :: l, _ => rfl
      | [a], hl => simp at hl; omega
  have hm : monotonicity (ap e0 h (n + 1)) ≠ 0 := by
    rw [monotonicity_ne_zero]
    rcases lt_or_gt_of_ne hh with hh | hh
    · exact Or.inr (mono_of_pairwise (ap_anti _ hh _))
    · exact Or.inl (mono_of_pairwise (ap_mono _ hh _))
  simp [mkAxis, hm, hg, ap_head, ap_last, bind, Except.bind, pure, Except.pure, evenAxisOf]

theorem binEdges_ap (r : K × K) (n : ℕ) : binEdges r n = ap r.1 ((r.2 - r.1) / n) (n + 1) := by
  simp [binEdges, ap]

/-- The axis of a dimension. -/
def dimAxis (name unit : String) (d : Dim K) : Axis K := evenAxisOf name unit d.range.1 d.cell d.bins

theorem dimAxis_len (name unit : String) (d : Dim K) : (dimAxis name unit d).len = d.bins :=
  ap_length _ _ _

/-- A dimension with bins and a range which is not degenerate. -/
def Gridded (d : Dim K) : Prop := 0 < d.bins ∧ d.range.1 ≠ d.range.2

theorem ok_gridded {spacing : K → K} {s : Shape} {N : ℕ} {d : Dim K} (h : d.Ok spacing s N) : Gridded d :=
  ⟨h.pos, h.range.1⟩

theorem gridded_cell {d : Dim K} (h : Gridded d) : d.cell ≠ 0 := by
  unfold Dim.cell
  have h1 : (d.bins : K) ≠ 0 := by exact_mod_cast h.1.ne'
  have h2 : d.range.2 - d.range.1 ≠ 0 := sub_ne_zero.2 (Ne.symm h.2)
  exact div_ne_zero h2 h1

theorem cell_ne {spacing : K → K} {s : Shape} {N : ℕ} {d : Dim K} (h : d.Ok spacing s N) :
    d.cell ≠ 0 := gridded_cell (ok_gridded h)

theorem firstCell_edges {spacing : K → K} {s : Shape} {N : ℕ} {d : Dim K} (h : d.Ok spacing s N) :
    firstCell (binEdges d.range d.bins) = .ok d.cell := by
  obtain ⟨m, hm⟩ : ∃ m, d.bins = m + 1 := ⟨d.bins - 1, by have := h.pos; omega⟩
  rw [binEdges_ap]
  have : ap d.range.1 ((d.range.2 - d.range.1) / d.bins) (d.bins + 1) =
      d.range.1 :: (d.range.1 + (d.range.2 - d.range.1) / d.bins) ::
        (ap d.range.1 ((d.range.2 - d.range.1) / d.bins) (d.bins + 1)).tail.tail := by
    rw [show d.bins + 1 = m + 2 by omega]
    simp [ap, List.range_succ_eq_map]
  rw [this]
  simp [firstCell, Dim.cell]

theorem cellVolume_edges {spacing : K → K} {s : Shape} {N : ℕ} {ds : List (Dim K)}
    (h : ∀ d ∈ ds, d.Ok spacing s N) :
    cellVolume (ds.map fun d => binEdges d.range d.bins) = .ok (ds.map Dim.cell).prod := by
  have : (ds.map fun d => binEdges d.range d.bins).mapM firstCell = .ok (ds.map Dim.cell) := by
    induction ds with
    | nil => rfl
    | cons d ds ih =>
      rw [List.map_cons, List.mapM_cons, firstCell_edges (h d (by simp)),
        ih (fun e he => h e (by simp [he]))]
      rfl
  simp [cellVolume, this, bind, Except.bind, pure, Except.pure]

theorem edgeAxis_even {spl : Splines K} (hspl : ExactOnEven spl) {d : Dim K} (h : Gridded d) {shape : List ℕ} {i : ℕ} (hi : shape[i]? = some d.bins)
    (name : String) :
    edgeAxis spl shape i name (some (binEdges d.range d.bins)) = .ok [dimAxis name "" d] := by
  have hm := mkAxis_nodes_even hspl name "" (e0 := d.range.1) h.1 (gridded_cell h)
  unfold edgeAxis
  rw [binEdges_ap]
  simp only [hi]
  unfold Dim.cell at hm
  simp only [hm, bind, Except.bind]
  have : d.bins = (evenAxisOf name "" d.range.1 ((d.range.2 - d.range.1) / d.bins) d.bins).len :=
    (ap_length _ _ _).symm
  rw [if_pos this]
  rfl

theorem fieldFromEdges_even {spl : Splines K} (hspl : ExactOnEven spl)
    {ds : List (Dim K)} (h : ∀ d ∈ ds, Gridded d) (h1 : 1 ≤ ds.length)
    (h3 : ds.length ≤ 3) (m : Arr K) (hm : m.shape = ds.map Dim.bins) :
    fieldFromEdges spl m (ds.map fun d => binEdges d.range d.bins) =
      .ok ⟨"", "", m, (["x", "y", "z"].zip ds).map fun p => dimAxis p.1 "" p.2,
        m.shape.map fun _ => some false, m.shape.map fun _ => none⟩ := by
  match ds, h1, h3 with
  | [a], _, _ =>
    have e1 := edgeAxis_even hspl (h a (by simp)) (shape := m.shape) (i := 0) (by rw [hm]; rfl) "x"
    simp only [List.map_cons, List.map_nil] at hm ⊢
    unfold fieldFromEdges
    simp only [List.cons_ne_nil, if_false, List.getElem?_cons_zero, List.getElem?_cons_succ,
      List.getElem?_nil, e1, bind, Except.bind]
    unfold edgeAxis
    simp only
    rw [if_neg (by rw [hm]; simp), if_neg (by rw [hm]; simp)]
    rfl
  | [a, b], _, _ =>
    have e1 := edgeAxis_even hspl (h a (by simp)) (shape := m.shape) (i := 0) (by rw [hm]; rfl) "x"
    have e2 := edgeAxis_even hspl (h b (by simp)) (shape := m.shape) (i := 1) (by rw [hm]; rfl) "y"
    simp only [List.map_cons, List.map_nil] at hm ⊢
    unfold fieldFromEdges
    simp only [List.cons_ne_nil, if_false, List.getElem?_cons_zero, List.getElem?_cons_succ,
      List.getElem?_nil, e1, e2, bind, Except.bind]
    unfold edgeAxis
    simp only
    rw [if_neg (by rw [hm]; simp)]
    rfl
  | [a, b, c], _, _ =>
    have e1 := edgeAxis_even hspl (h a (by simp)) (shape := m.shape) (i := 0) (by rw [hm]; rfl) "x"
    have e2 := edgeAxis_even hspl (h b (by simp)) (shape := m.shape) (i := 1) (by rw [hm]; rfl) "y"
    have e3 := edgeAxis_even hspl (h c (by simp)) (shape := m.shape) (i := 2) (by rw [hm]; rfl) "z"
    simp only [List.map_cons, List.map_nil] at hm ⊢
    unfold fieldFromEdges
    simp only [List.cons_ne_nil, if_false, List.getElem?_cons_zero, List.getElem?_cons_succ,
      e1, e2, e3, bind, Except.bind]
    rfl

/-! ### The histogram -/

theorem rangeAt_argMeans (l : List (Option (End K × End K))) (k : ℕ) (o : Option (End K × End K))
    (d : Dim K) (hd : d.coords ≠ []) (hl : l[k]? = some o) (hm : ArgMeans o d) :
    rangeAt (some l) k d.coords = .ok d.range := by
  obtain ⟨lo, hlo, hlo1, hlo2⟩ := npMin_spec d.coords hd
  obtain ⟨hi, hhi, hhi1, hhi2⟩ := npMax_spec d.coords hd
  obtain ⟨m1, m2, m3, m4⟩ := hm
  have e1 : o.bind (·.1) = none → d.range.1 = lo := fun h =>
    le_antisymm ((m2 h).2 _ hlo1) (hlo2 _ (m2 h).1)
  have e2 : o.bind (·.2) = none → d.range.2 = hi := fun h =>
    le_antisymm (hhi2 _ (m4 h).1) ((m4 h).2 _ hhi1)
  have e : ∀ a b : K, d.range.1 = a → d.range.2 = b → (a, b) = d.range := by
    rintro a b rfl rfl
    rfl
  unfold rangeAt
  simp only [hl]
  match o with
  | none =>
    simp only [hlo, hhi, bind, Except.bind, pure, Except.pure, e _ _ (e1 rfl) (e2 rfl)]
  | some (none, none) =>
    simp only [hlo, hhi, bind, Except.bind, pure, Except.pure, e _ _ (e1 rfl) (e2 rfl)]
  | some (some a, none) =>
    simp only [hhi, bind, Except.bind, pure, Except.pure, e _ _ (m1 a rfl) (e2 rfl)]
  | some (none, some b) =>
    simp only [hlo, bind, Except.bind, pure, Except.pure, e _ _ (e1 rfl) (m3 b rfl)]
  | some (some a, some b) =>
    simp only [bind, Except.bind, pure, Except.pure, e _ _ (m1 a rfl) (m3 b rfl)]

theorem binAt_mean {ns : List ℕ} {b : BinsArg} (h : BinsMean ns b) (k n : ℕ)
    (hk : ns[k]? = some n) : binAt (binsSeq ns.length b) k = .ok n := by
  have key : binsSeq ns.length b = ns := by
    cases b with
    | none =>
      rcases h with ⟨_, rfl⟩ | ⟨_, rfl⟩ | ⟨_, rfl⟩ <;> rfl
    | int n =>
      simp only [binsSeq]
      exact (List.eq_replicate_of_mem h).symm
    | many l => exact h
  simp [binAt, key, hk]

theorem range_sum (N : ℕ) (g : ℕ → K) : ((List.range N).map g).sum = ∑ p ∈ Finset.range N, g p := by
  induction N with
  | zero => rfl
  | succ N ih => rw [List.range_succ, List.map_append, List.sum_append, ih, Finset.sum_range_succ]; simp

theorem zip_range {α β : Type} (a : List α) (b : List β) (a0 : α) (b0 : β) (N : ℕ) (ha : a.length = N)
    (hb : b.length = N) : a.zip b = (List.range N).map fun p => (a.getD p a0, b.getD p b0) := by
  apply List.ext_getElem
  · simp [ha, hb]
  · intro i h1 h2
    simp only [List.length_zip, ha, hb, min_self] at h1
    simp [List.getD, ha, hb, h1]

theorem getD_range {α : Type} (n i : ℕ) (f : ℕ → α) (a : α) (hi : i < n) :
    ((List.range n).map f).getD i a = f i := by
  simp [List.getD, hi]

/-- The histogram holds the sums of the fractions of all particles. -/
theorem histogramdd_fraction {spacing : K → K} {s : Shape} {ds : List (Dim K)} {w : List K}
    (hw : w ≠ []) (h : ∀ d ∈ ds, d.Ok spacing s w.length) (h1 : 1 ≤ ds.length) (h3 : ds.length ≤ 3)
    {ranges : List (Option (End K × End K))}
    (hr : ∀ (k : ℕ) (d : Dim K), ds[k]? = some d → ∃ o, ranges[k]? = some o ∧ ArgMeans o d)
    {bins : BinsArg} (hb : BinsMean (ds.map Dim.bins) bins) {shape : Option ℕ}
    (hs : Shape.ofCode (shape.getD 2) = some s) :
    ∃ hist, histogramdd spacing (.seq (ds.map Dim.coords)) (.many ranges) bins (some w) shape = .ok hist ∧
      (Hist.arr hist).1.shape = ds.map Dim.bins ∧
      (Hist.arr hist).2 = (ds.map fun d => binEdges d.range d.bins) ∧
      ∀ idx, InBounds (ds.map Dim.bins) idx → (Hist.arr hist).1.at' idx =
        ∑ p ∈ Finset.range w.length, w.getD p 0 * fraction s ds idx p := by
  have hN : 0 < w.length := List.length_pos_of_ne_nil hw
  have hne : ∀ d ∈ ds, d.coords ≠ [] := by
    intro d hd h0
    have := (h d hd).len
    rw [h0] at this
    simp at this
    omega
  have hR : ∀ (k : ℕ) (d : Dim K), ds[k]? = some d → rangeAt (some ranges) k d.coords = .ok d.range := by
    intro k d hk
    obtain ⟨o, ho, hm⟩ := hr k d hk
    exact rangeAt_argMeans ranges k o d (hne d (List.mem_of_getElem? hk)) ho hm
  have hB : ∀ (k : ℕ) (d : Dim K), ds[k]? = some d → binAt (binsSeq ds.length bins) k = .ok d.bins := by
    intro k d hk
    have := binAt_mean hb k d.bins (by simp [hk])
    simpa using this
  have hsh : shapeOf shape = .ok s := by simp [shapeOf, hs]
  match ds, h1, h3 with
  | [a], _, _ =>
    have ha := h a (by simp)
    have hh := histogram_clear spacing s a.coords a.range a.bins (some w)
      ⟨ha.range, ha.bound, by simp [weightsOf, ha.len]⟩ ha.clear
    have hdd : histogramdd spacing (.seq ([a].map Dim.coords)) (.many ranges) bins (some w) shape =
        (histogram spacing s a.coords a.range a.bins (some w)).map (fun he => Hist.h1 he.1 he.2) := by
      have r1 := hR 0 a rfl
      have b1 := hB 0 a rfl
      simp only [List.length_cons, List.length_nil, Nat.reduceAdd] at b1
      simp only [histogramdd, columns, rangeSeq, List.map_cons, List.map_nil, r1, b1, hsh, bind,
        Except.bind, pure, Except.pure]
      cases histogram spacing s a.coords a.range a.bins (some w) <;> rfl
    rw [hh] at hdd
    refine ⟨_, hdd, ?_, ?_, ?_⟩
    · simp only [Hist.arr, grid1, List.length_map, List.length_range, List.map_cons, List.map_nil]
    · rfl
    · intro idx hidx
      match idx, hidx with
      | [i], hidx =>
        have hi : i < a.bins := hidx.2 0 i a.bins rfl rfl
        simp only [Hist.arr, grid1, List.getD_cons_zero]
        rw [getD_range _ _ _ _ hi]
        simp only [weightsOf]
        rw [zip_range a.coords w 0 0 w.length ha.len rfl, List.map_map, range_sum]
        apply Finset.sum_congr rfl
        intro p _
        simp only [Function.comp_apply, fraction, Dim.scaledPos]
        ring
      | [], hidx => have := hidx.1; simp at this
      | _ :: _ :: _, hidx => have := hidx.1; simp at this
  | [a, b], _, _ =>
    have ha := h a (by simp)
    have hb := h b (by simp)
    have hh := histogram2d_clear spacing s a.coords b.coords a.range b.range a.bins b.bins (some w)
      ⟨by rw [ha.len, hb.len], ha.range, hb.range, ha.bound, hb.bound, by simp [weightsOf, ha.len]⟩
      ha.clear hb.clear
    have hdd : histogramdd spacing (.seq ([a, b].map Dim.coords)) (.many ranges) bins (some w) shape =
        (histogram2d spacing s a.coords b.coords a.range b.range a.bins b.bins (some w)).map (fun he => Hist.h2 he.1 he.2.1 he.2.2) := by
      have r1 := hR 0 a rfl
      have b1 := hB 0 a rfl
      have r2 := hR 1 b rfl
      have b2 := hB 1 b rfl
      simp only [List.length_cons, List.length_nil, Nat.reduceAdd] at b1 b2
      simp only [histogramdd, columns, rangeSeq, List.map_cons, List.map_nil, r1, b1, r2, b2, hsh, bind, Except.bind, pure, Except.pure]
      cases histogram2d spacing s a.coords b.coords a.range b.range a.bins b.bins (some w) <;> rfl
    rw [hh] at hdd
    refine ⟨_, hdd, ?_, ?_, ?_⟩
    · obtain ⟨n, hn⟩ : ∃ n, a.bins = n + 1 := ⟨a.bins - 1, by have := ha.pos; omega⟩
      simp only [Hist.arr, grid2, List.length_map, List.length_range, List.map_cons, List.map_nil]
      rw [hn]
      simp [List.range_succ_eq_map]
    · rfl
    · intro idx hidx
      match idx, hidx with
      | [i, j], hidx =>
        have hi : i < a.bins := hidx.2 0 i a.bins rfl rfl
        have hj : j < b.bins := hidx.2 1 j b.bins rfl rfl
        simp only [Hist.arr, grid2, List.getD_cons_zero, List.getD_cons_succ]
        rw [getD_range _ _ _ _ hi, getD_range _ _ _ _ hj]
        simp only [weightsOf]
        rw [zip_range a.coords b.coords 0 0 w.length ha.len hb.len,
          zip_range _ w (0, 0) 0 w.length (by simp) rfl, List.map_map, range_sum]
        apply Finset.sum_congr rfl
        intro p hp
        rw [Function.comp_apply, getD_range _ _ _ _ (Finset.mem_range.1 hp)]
        simp only [fraction, Dim.scaledPos]
        ring
      | [], hidx => have := hidx.1; simp at this
      | [_], hidx => have := hidx.1; simp at this
      | _ :: _ :: _ :: _, hidx => have := hidx.1; simp at this
  | [a, b, c], _, _ =>
    have ha := h a (by simp)
    have hb := h b (by simp)
    have hc := h c (by simp)
    have hh := histogram3d_clear spacing s a.coords b.coords c.coords a.range b.range c.range a.bins
      b.bins c.bins (some w)
      ⟨by rw [ha.len, hb.len], by rw [ha.len, hc.len], ha.range, hb.range, hc.range, ha.bound, hb.bound,
        hc.bound, by simp [weightsOf, ha.len]⟩
      ha.clear hb.clear hc.clear
    have hdd : histogramdd spacing (.seq ([a, b, c].map Dim.coords)) (.many ranges) bins (some w) shape =
        (histogram3d spacing s a.coords b.coords c.coords a.range b.range c.range a.bins b.bins
          c.bins (some w)).map (fun he => Hist.h3 he.1 he.2.1 he.2.2.1 he.2.2.2) := by
      have r1 := hR 0 a rfl
      have b1 := hB 0 a rfl
      have r2 := hR 1 b rfl
      have b2 := hB 1 b rfl
      have r3 := hR 2 c rfl
      have b3 := hB 2 c rfl
      simp only [List.length_cons, List.length_nil, Nat.reduceAdd] at b1 b2 b3
      simp only [histogramdd, columns, rangeSeq, List.map_cons, List.map_nil, r1, b1, r2, b2, r3, b3, hsh,
        bind, Except.bind, pure, Except.pure]
      cases histogram3d spacing s a.coords b.coords c.coords a.range b.range c.range a.bins b.bins
          c.bins (some w) <;> rfl
    rw [hh] at hdd
    refine ⟨_, hdd, ?_, ?_, ?_⟩
    · obtain ⟨n, hn⟩ : ∃ n, a.bins = n + 1 := ⟨a.bins - 1, by have := ha.pos; omega⟩
      obtain ⟨m, hm⟩ : ∃ n, b.bins = n + 1 := ⟨b.bins - 1, by have := hb.pos; omega⟩
      simp only [Hist.arr, grid3, List.length_map, List.length_range, List.map_cons, List.map_nil]
      rw [hn, hm]
      simp [List.range_succ_eq_map]
    · rfl
    · intro idx hidx
      match idx, hidx with
      | [i, j, k], hidx =>
        have hi : i < a.bins := hidx.2 0 i a.bins rfl rfl
        have hj : j < b.bins := hidx.2 1 j b.bins rfl rfl
        have hk : k < c.bins := hidx.2 2 k c.bins rfl rfl
        simp only [Hist.arr, grid3, List.getD_cons_zero, List.getD_cons_succ]
        rw [getD_range _ _ _ _ hi, getD_range _ _ _ _ hj, getD_range _ _ _ _ hk]
        simp only [weightsOf]
        rw [zip_range b.coords c.coords 0 0 w.length hb.len hc.len,
          zip_range a.coords _ 0 (0, 0) w.length ha.len (by simp),
          zip_range _ w (0, 0, 0) 0 w.length (by simp) rfl, List.map_map, range_sum]
        apply Finset.sum_congr rfl
        intro p hp
        rw [Function.comp_apply, getD_range _ _ _ _ (Finset.mem_range.1 hp),
          getD_range _ _ _ _ (Finset.mem_range.1 hp)]
        simp only [fraction, Dim.scaledPos]
        ring
      | [], hidx => have := hidx.1; simp at this
      | [_], hidx => have := hidx.1; simp at this
      | [_, _], hidx => have := hidx.1; simp at this
      | _ :: _ :: _ :: _ :: _, hidx => have := hidx.1; simp at this

theorem createHistogram_density {S : Type} {spacing : K → K} {c : Collection S K} {sps : List S}
    {a : CreateArgs S K} {s : Shape} {ds : List (Dim K)} {w : List K}
    (hw : w ≠ []) (h : ∀ d ∈ ds, d.Ok spacing s w.length) (h1 : 1 ≤ ds.length) (h3 : ds.length ≤ 3)
    (hd : sps.mapM c.eval = .ok (ds.map Dim.coords)) (hcw : c.weight a.weights = .ok w)
    {ranges : List (Option (End K × End K))} {bins : BinsArg}
    (hranges : usedRanges c sps a = .ok ranges) (hbins : usedBins c sps a = .ok bins)
    (hr : ∀ (k : ℕ) (d : Dim K), ds[k]? = some d → ∃ o, ranges[k]? = some o ∧ ArgMeans o d)
    (hb : BinsMean (ds.map Dim.bins) bins) (hs : Shape.ofCode (a.shape.getD 2) = some s) :
    ∃ m, createHistogram spacing c sps a = .ok (m, ds.map fun d => binEdges d.range d.bins) ∧
      m.shape = ds.map Dim.bins ∧
      ∀ idx, InBounds (ds.map Dim.bins) idx → m.at' idx = density s ds w idx := by
  obtain ⟨hist, e1, e2, e3, e4⟩ := histogramdd_fraction hw h h1 h3 hr hb hs
  have hl : sps.length = ds.length := by
    have := (Fields.mapM_ok hd).length_eq
    simpa using this
  have hne : ∀ d ∈ ds, d.coords ≠ [] := by
    intro d hd h0
    have := (h d hd).len
    rw [h0] at this
    simp at this
    exact hw (List.eq_nil_of_length_eq_zero this.symm)
  have hdata : histData c a.force sps = .ok (ds.map Dim.coords) := by
    unfold histData
    rw [hd]
  have hV := cellVolume_edges h
  refine ⟨⟨(Hist.arr hist).1.shape, fun idx => (Hist.arr hist).1.at' idx / (ds.map Dim.cell).prod⟩, ?_, e2,
    ?_⟩
  · unfold createHistogram
    rw [if_neg (by omega)]
    simp only [hdata, hranges, hbins, bind, Except.bind, pure, Except.pure]
    clear hd hdata
    match ds, h1, hne with
    | d :: ds, _, hne =>
      have h0 := hne d (by simp)
      cases hx : d.coords with
      | nil => exact absurd hx h0
      | cons x l =>
        simp only [List.map_cons, hx] at e1 e3 hV ⊢
        simp only [hcw, e1, e3, hV]
  · intro idx hidx
    show _ / _ = _
    rw [e4 idx hidx]
    rfl

/-! ### The field -/

theorem labelAxes_zip {S : Type} (c : Collection S K) (sps : List S) (ds : List (Dim K)) (names : List String)
    (h : sps.length = ds.length) (hn : ds.length ≤ names.length) :
    labelAxes c sps ((names.zip ds).map fun p => dimAxis p.1 "" p.2) =
      .ok ((sps.zip ds).map fun p => dimAxis (findAttr (c.scalarName p.1)) (findAttr (c.scalarUnit p.1)) p.2) := by
  induction sps generalizing ds names with
  | nil =>
    have : ds = [] := List.eq_nil_of_length_eq_zero (by simpa using h.symm)
    subst this
    simp [labelAxes]
  | cons sp sps ih =>
    match ds, names, h, hn with
    | d :: ds, n :: names, h, hn =>
      simp only [List.zip_cons_cons, List.map_cons, labelAxes]
      rw [ih ds names (by simpa using h) (by simpa using hn)]
      rfl

theorem createField_density {S : Type} {spl : Splines K} (hspl : ExactOnEven spl) {spacing : K → K}
    {c : Collection S K} {sps : List S}
    {a : CreateArgs S K} {s : Shape} {ds : List (Dim K)} {w : List K}
    (hw : w ≠ []) (h : ∀ d ∈ ds, d.Ok spacing s w.length) (h1 : 1 ≤ ds.length) (h3 : ds.length ≤ 3)
    (hd : sps.mapM c.eval = .ok (ds.map Dim.coords)) (hcw : c.weight a.weights = .ok w)
    {ranges : List (Option (End K × End K))} {bins : BinsArg}
    (hranges : usedRanges c sps a = .ok ranges) (hbins : usedBins c sps a = .ok bins)
    (hr : ∀ (k : ℕ) (d : Dim K), ds[k]? = some d → ∃ o, ranges[k]? = some o ∧ ArgMeans o d)
    (hb : BinsMean (ds.map Dim.bins) bins) (hs : Shape.ofCode (a.shape.getD 2) = some s) :
    ∃ m, createField spl spacing c sps a = .ok
        ⟨⟨fieldName c a,
          "", m, (sps.zip ds).map fun p =>
            dimAxis (findAttr (c.scalarName p.1)) (findAttr (c.scalarUnit p.1)) p.2,
          m.shape.map fun _ => some false, m.shape.map fun _ => none⟩, some c.species,
          toString c.npart ++ " npart in " ++ toString c.nspecies ++ " species"⟩ ∧
      m.shape = ds.map Dim.bins ∧
      ∀ idx, InBounds (ds.map Dim.bins) idx → m.at' idx = density s ds w idx := by
  obtain ⟨m, e1, e2, e3⟩ := createHistogram_density hw h h1 h3 hd hcw hranges hbins hr hb hs
  have hl : sps.length = ds.length := by
    have := (Fields.mapM_ok hd).length_eq
    simpa using this
  refine ⟨m, ?_, e2, e3⟩
  unfold createField
  rw [e1]
  simp only [bind, Except.bind, fieldFromEdges_even hspl (fun d hd => ok_gridded (h d hd)) h1 h3 m e2,
    labelAxes_zip c sps ds ["x", "y", "z"] hl (by simpa using h3), pure, Except.pure]

theorem zipAxes_lens {S : Type} (f g : S → String) (sps : List S) (ds : List (Dim K))
    (h : sps.length = ds.length) :
    ((sps.zip ds).map fun p => dimAxis (f p.1) (g p.1) p.2).map Axis.len = ds.map Dim.bins := by
  induction sps generalizing ds with
  | nil =>
    have : ds = [] := List.eq_nil_of_length_eq_zero (by simpa using h.symm)
    subst this
    rfl
  | cons sp sps ih =>
    match ds, h with
    | d :: ds, h =>
      simp only [List.zip_cons_cons, List.map_cons, dimAxis_len]
      rw [ih ds (by simpa using h)]

theorem dimAxis_sizes (name unit : String) (d : Dim K) :
    cellSizes (dimAxis name unit d) = List.replicate d.bins d.cell := by
  unfold cellSizes dimAxis evenAxisOf
  apply List.ext_getElem?
  intro i
  rw [List.getElem?_zipWith, List.getElem?_tail]
  simp only
  by_cases hi : i < d.bins
  · rw [ap_get _ _ _ _ (by omega), ap_get _ _ _ _ (by omega), List.getElem?_replicate, if_pos hi]
    simp only [Option.some.injEq]
    push_cast
    ring
  · rw [List.getElem?_eq_none (l := ap d.range.1 d.cell (d.bins + 1)) (i := i + 1)
      (by rw [ap_length]; omega), List.getElem?_replicate, if_neg hi]
    cases (ap d.range.1 d.cell (d.bins + 1))[i]? <;> rfl

theorem zipAxes_sizes {S : Type} (f g : S → String) (sps : List S) (ds : List (Dim K))
    (h : sps.length = ds.length) :
    ((sps.zip ds).map fun p => dimAxis (f p.1) (g p.1) p.2).map cellSizes =
      ds.map fun d => List.replicate d.bins d.cell := by
  induction sps generalizing ds with
  | nil =>
    have : ds = [] := List.eq_nil_of_length_eq_zero (by simpa using h.symm)
    subst this
    rfl
  | cons sp sps ih =>
    match ds, h with
    | d :: ds, h =>
      simp only [List.zip_cons_cons, List.map_cons, dimAxis_sizes]
      rw [ih ds (by simpa using h)]

/-! ### Integrals -/

theorem sum_W' {s : Shape} {d : Dim K} {N p : ℕ} (hb : d.bins < 2 ^ 31) (hl : d.coords.length = N)
    (hin : d.AllInside s) (hp : p < N) :
    ∑ i ∈ Finset.range d.bins, W s ((i : K) + 1 / 2 - d.scaledPos p) = 1 := by
  rw [← range_sum]
  apply sum_W hb
  have : d.coords.getD p 0 ∈ d.coords := by
    rw [List.getD_eq_getElem?_getD, List.getElem?_eq_getElem (by omega)]
    simp
  exact hin _ this

/-- The product over the flagged entries. -/
def flaggedCells : List Bool → List (Dim K) → K
  | true :: sel, d :: ds => d.cell * flaggedCells sel ds
  | false :: sel, _ :: ds => flaggedCells sel ds
  | _, _ => 1

theorem flaggedCells_mul (sel : List Bool) (ds : List (Dim K)) (h : sel.length = ds.length) :
    flaggedCells sel ds * ((unflagged sel ds).map Dim.cell).prod = (ds.map Dim.cell).prod := by
  induction ds generalizing sel with
  | nil =>
    have : sel = [] := List.eq_nil_of_length_eq_zero (by simpa using h)
    subst this
    simp [flaggedCells, unflagged]
  | cons d ds ih =>
    match sel, h with
    | true :: sel, h =>
      have := ih sel (by simpa using h)
      simp only [flaggedCells, unflagged, if_true, List.map_cons, List.prod_cons, ← this]
      ring
    | false :: sel, h =>
      have := ih sel (by simpa using h)
      simp only [flaggedCells, unflagged, Bool.false_eq_true, if_false, List.map_cons, List.prod_cons, ← this]
      ring

theorem integral_fraction (s : Shape) (N : ℕ) (ds : List (Dim K)) (sel : List Bool)
    (h : sel.length = ds.length) (hok : ∀ d ∈ ds, d.bins < 2 ^ 31 ∧ d.coords.length = N)
    (hin : ∀ (k : ℕ) (d : Dim K), sel[k]? = some true → ds[k]? = some d → d.AllInside s)
    (cf : ℕ → K) (idx : List ℕ) (hidx : idx.length = (unflagged sel ds).length) :
    integral (ds.map fun d => List.replicate d.bins d.cell) sel
        (fun j => ∑ p ∈ Finset.range N, cf p * fraction s ds j p) idx =
      ∑ p ∈ Finset.range N, cf p * flaggedCells sel ds * fraction s (unflagged sel ds) idx p := by
  induction ds generalizing sel cf idx with
  | nil =>
    have : sel = [] := List.eq_nil_of_length_eq_zero (by simpa using h)
    subst this
    simp [integral, flaggedCells, unflagged, fraction]
  | cons d ds ih =>
    match sel, h with
    | true :: sel, h =>
      have hok' : ∀ d ∈ ds, d.bins < 2 ^ 31 ∧ d.coords.length = N := fun e he => hok e (by simp [he])
      have hin' : ∀ (k : ℕ) (d : Dim K), sel[k]? = some true → ds[k]? = some d → d.AllInside s :=
        fun k e h1 h2 => hin (k + 1) e h1 h2
      have hidx' : idx.length = (unflagged sel ds).length := by
        simpa [unflagged] using hidx
      have hd := hok d (by simp)
      have hdi := hin 0 d rfl rfl
      simp only [List.map_cons, integral, List.length_replicate, unflagged, if_true, flaggedCells]
      have key : ∀ i ∈ Finset.range d.bins,
          (List.replicate d.bins d.cell).getD i 0 • integral (ds.map fun d => List.replicate d.bins d.cell) sel
            (fun j => ∑ p ∈ Finset.range N, cf p * fraction s (d :: ds) (i :: j) p) idx =
          ∑ p ∈ Finset.range N, W s ((i : K) + 1 / 2 - d.scaledPos p) *
            (cf p * (d.cell * flaggedCells sel ds) * fraction s (unflagged sel ds) idx p) := by
        intro i hi
        have e : (fun j => ∑ p ∈ Finset.range N, cf p * fraction s (d :: ds) (i :: j) p) =
            fun j => ∑ p ∈ Finset.range N, (cf p * W s ((i : K) + 1 / 2 - d.scaledPos p)) * fraction s ds j p := by
          funext j
          apply Finset.sum_congr rfl
          intro p _
          simp only [fraction]
          ring
        rw [e, ih sel (by simpa using h) hok' hin' _ idx hidx']
        have : (List.replicate d.bins d.cell).getD i 0 = d.cell := by
          rw [List.getD_eq_getElem?_getD, List.getElem?_replicate, if_pos (Finset.mem_range.1 hi)]
          rfl
        rw [this, smul_eq_mul, Finset.mul_sum]
        apply Finset.sum_congr rfl
        intro p _
        ring
      rw [Finset.sum_congr rfl key, Finset.sum_comm]
      apply Finset.sum_congr rfl
      intro p hp
      rw [← Finset.sum_mul, sum_W' hd.1 hd.2 hdi (Finset.mem_range.1 hp), one_mul]
    | false :: sel, h =>
      have hok' : ∀ d ∈ ds, d.bins < 2 ^ 31 ∧ d.coords.length = N := fun e he => hok e (by simp [he])
      have hin' : ∀ (k : ℕ) (d : Dim K), sel[k]? = some true → ds[k]? = some d → d.AllInside s :=
        fun k e h1 h2 => hin (k + 1) e h1 h2
      match idx, hidx with
      | i :: idx, hidx =>
        have hidx' : idx.length = (unflagged sel ds).length := by
          simpa [unflagged] using hidx
        simp only [List.map_cons, integral, unflagged, Bool.false_eq_true, if_false, flaggedCells]
        have e : (fun j => ∑ p ∈ Finset.range N, cf p * fraction s (d :: ds) (i :: j) p) =
            fun j => ∑ p ∈ Finset.range N, (cf p * W s ((i : K) + 1 / 2 - d.scaledPos p)) * fraction s ds j p := by
          funext j
          apply Finset.sum_congr rfl
          intro p _
          simp only [fraction]
          ring
        rw [e, ih sel (by simpa using h) hok' hin' _ idx hidx']
        apply Finset.sum_congr rfl
        intro p _
        simp only [fraction]
        ring
      | [], hidx => simp [unflagged] at hidx

/-- The integral of the distribution function over some dimensions is the distribution function of
the others. -/
theorem integral_density {spacing : K → K} (s : Shape) (w : List K) (ds : List (Dim K)) (sel : List Bool)
    (h : sel.length = ds.length) (hok : ∀ d ∈ ds, d.Ok spacing s w.length)
    (hin : ∀ (k : ℕ) (d : Dim K), sel[k]? = some true → ds[k]? = some d → d.AllInside s)
    (idx : List ℕ) (hidx : idx.length = (unflagged sel ds).length) :
    integral (ds.map fun d => List.replicate d.bins d.cell) sel (density s ds w) idx =
      density s (unflagged sel ds) w idx := by
  have hne : (ds.map Dim.cell).prod ≠ 0 := by
    apply List.prod_ne_zero
    intro h0
    rw [List.mem_map] at h0
    obtain ⟨d, hd, h0⟩ := h0
    exact cell_ne (hok d hd) h0
  have hm := flaggedCells_mul sel ds h
  have e : density s ds w = fun j => ∑ p ∈ Finset.range w.length,
      (w.getD p 0 / (ds.map Dim.cell).prod) * fraction s ds j p := by
    funext j
    unfold density
    rw [Finset.sum_div]
    apply Finset.sum_congr rfl
    intro p _
    ring
  rw [e, integral_fraction s w.length ds sel h (fun d hd => ⟨(hok d hd).bound, (hok d hd).len⟩) hin _ idx hidx]
  unfold density
  rw [Finset.sum_div]
  apply Finset.sum_congr rfl
  intro p _
  rw [← hm] at hne ⊢
  have h1 := left_ne_zero_of_mul hne
  have h2 := right_ne_zero_of_mul hne
  field_simp

end

end Postpic.Particles
