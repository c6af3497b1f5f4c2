import Mathlib.Algebra.BigOperators.Group.List.Basic
import Verif.Lemmas.Autocut
import Verif.Lemmas.Simulation
import Verif.Props.Compat
import Verif.Props.FieldIndex
import Verif.Props.FieldReduce
import Verif.Props.Fft

/-!
# C34: cutting out the main feature
-/

set_option autoImplicit false
set_option linter.unusedSectionVars false

namespace Postpic.Props

open Postpic Postpic.Axes Postpic.Fields Postpic.Spec

/-- C57: `squeeze()` removes exactly the dimensions of length one, with their axes; the other axes
keep names, units, grids and nodes, and the samples stay where they are. -/
theorem squeeze_partial {K V : Type} [_root_.Field K] [LinearOrder K] [IsStrictOrderedRing K]
    (spl : Splines K) (f : Fields.Field K V) (hf : f.Sound) (h3 : f.shape.length ≤ 3) :
    ∃ r, f.squeeze spl = .ok r ∧ r.Sound ∧ r.name = f.name ∧ r.unit = f.unit ∧
      r.shape = f.shape.filter (fun n => decide (n ≠ 1)) ∧
      r.axes.map (fun ax => (ax.name, ax.unit, ax.grid, ax.gridNode)) =
        (f.axes.filter (fun ax => decide (ax.len ≠ 1))).map
          (fun ax => (ax.name, ax.unit, ax.grid, ax.gridNode)) ∧
      (∀ idx, InBounds r.shape idx → r.matrix.at' idx = f.matrix.at' (unsqueeze f.shape idx)) :=
  squeeze_sound spl hf h3

example := squeeze_partial midSplines field43 field43_sound (by decide)

/-- The window with its slice for one dimension. -/
theorem cutAxis_real {V : Type} (spl : Splines ℝ) (absV : V → ℝ) (h0 : ∀ v, 0 ≤ absV v)
    {s : Fields.Field ℝ V} (hs : s.Sound) (hn : s.shape.length ≤ 2) {idx : List ℕ}
    (hi : InBounds s.shape idx) (hv : 0 < absV (s.matrix.at' idx)) (p q : ℝ) (hpq : p ≤ q)
    (hq : q < 1) (d : ℕ) (hd : d < s.shape.length) :
    ∃ (e f : ℕ) (w : List ℝ), cutAxis spl (fun m a => Compat.tukey m a) absV s (p, q) d =
        .ok (d, ⟨some e, some f, false⟩, w) ∧
      e < f ∧ f ≤ s.shape.getD d 0 ∧ w.length = f - e ∧ (∀ x ∈ w, 0 ≤ x ∧ x ≤ 1) ∧
      ((∀ x ∈ w, x = 1) ∨ (w.head? = some 0 ∧ w.getLast? = some 0)) ∧
      ∀ j < s.shape.getD d 0, (∀ i < s.shape.getD d 0,
        projection absV s.matrix d i * q < projection absV s.matrix d j) →
          e ≤ j ∧ j < f ∧ w.getD (j - e) 0 = 1 := by
  obtain ⟨pr, hp1, hp2, hp3⟩ := project_spec spl absV hs hn d hd
  obtain ⟨j0, hj0, hj0p⟩ := projection_pos absV h0 hs hn hi hv d hd
  set n := s.shape.getD d 0 with hnn
  set g := projection absV s.matrix d with hg
  obtain ⟨m, i0, hm, hi0, hmi, hle⟩ := max_of_range g n (by omega)
  have hmpos : 0 < m := lt_of_lt_of_le hj0p (hle j0 hj0)
  obtain ⟨b, c, x, hcut, hxb, hbc, hcx, hin, hb1, hc1⟩ := cutRange_spec hm hmpos hpq hq
  rw [List.length_map, List.length_range] at hcx hin
  set M := c - b + 2 * x with hM
  set alpha : ℝ := 1 - ((c - b : ℕ) : ℝ) / (M : ℝ) with halpha
  have hMpos : (0 : ℝ) < M := by exact_mod_cast (by omega : 0 < M)
  have hL : (0 : ℝ) < ((c - b : ℕ) : ℝ) := by exact_mod_cast (by omega : 0 < c - b)
  have hML : (M : ℝ) = ((c - b : ℕ) : ℝ) + 2 * x := by rw [hM]; push_cast; ring
  have ha1 : alpha < 1 := by
    have : 0 < ((c - b : ℕ) : ℝ) / (M : ℝ) := div_pos hL hMpos
    rw [halpha]
    linarith
  have hax : alpha * M = 2 * x := by
    rw [halpha, sub_mul, one_mul, div_mul_cancel₀ _ hMpos.ne', hML]
    ring
  obtain ⟨w, hw, hwl, hw01, -, hflat, -⟩ := tukey_partial M alpha ha1
  refine ⟨b - x, c + x, w, ?_, by omega, by omega, by omega, hw01, ?_, ?_⟩
  · unfold cutAxis
    rw [dims_sound hs, Int.toNat_natCast]
    show (do
      let p' ← projectAxes spl s.shape.length d (absField absV s)
      let k ← pyGet p'.shape 0
      let (e, f, alpha) ← cutRange ((List.range k).map fun j => p'.matrix.at' [j]) (p, q)
      let d' ← axisIdx s.shape.length d
      let w ← Compat.tukey (f - e) alpha
      return (d', (⟨some e, some f, false⟩ : Slice), w) : Res (ℕ × Slice × List ℝ)) = _
    rw [hp1]
    have e0 : pyGet pr.shape 0 = .ok n := by
      rw [hp2]
      rfl
    have e1 : (List.range n).map (fun j => pr.matrix.at' [j]) = (List.range n).map g :=
      List.map_congr_left fun j _ => hp3 j
    have e2 : axisIdx s.shape.length (d : ℤ) = .ok d := by
      unfold axisIdx
      rw [pyIdx_nat hd]
    have e3 : ((c + x : ℕ) : ℤ) - ((b - x : ℕ) : ℤ) = (M : ℤ) := by omega
    simp only [bind, Except.bind, e0, e1, hcut, e2, e3]
    rw [hw]
    rfl
  · by_cases hx : x = 0
    · left
      have ha0 : alpha ≤ 0 := by
        have : alpha * M = 0 := by rw [hax, hx]; simp
        rcases mul_eq_zero.1 this with h | h
        · exact h.le
        · exact absurd h hMpos.ne'
      unfold Compat.tukey at hw
      rw [if_neg (by omega)] at hw
      have hrep : w = List.replicate M 1 := by
        split_ifs at hw with h1
        · exact (Except.ok.inj hw).symm
        · exact (Except.ok.inj hw).symm
      intro y hy
      rw [hrep] at hy
      exact List.eq_of_mem_replicate hy
    · right
      have ha0 : 0 < alpha := by
        by_contra hneg
        have : alpha * M ≤ 0 := mul_nonpos_of_nonpos_of_nonneg (not_lt.1 hneg) hMpos.le
        rw [hax] at this
        have : (0 : ℝ) < x := by exact_mod_cast (by omega : 0 < x)
        linarith
      obtain ⟨w', hw', h1, h2⟩ := tukey_border M (by omega) alpha ha0 ha1
      rw [hw] at hw'
      cases hw'
      exact ⟨h1, h2⟩
  · intro j hj hjq
    have hgt : m * q < ((List.range n).map g).getD j 0 := by
      rw [List.getD_eq_getElem?_getD, List.getElem?_map, List.getElem?_range hj, hmi]
      exact hjq i0 hi0
    obtain ⟨h1, h2⟩ := hin j hj hgt
    refine ⟨by omega, by omega, ?_⟩
    have hk : j - (b - x) = x + (j - b) := by omega
    have := hflat (j - (b - x)) (by omega) (by
      have e : alpha * ((M : ℝ) - 1) / 2 = x - alpha / 2 := by
        rw [mul_sub, hax]
        ring
      rw [e, hk]
      have ha0 : 0 ≤ alpha := by
        by_contra hneg
        have : alpha * M < 0 := mul_neg_of_neg_of_pos (not_le.1 hneg) hMpos
        rw [hax] at this
        have : (0 : ℝ) ≤ x := Nat.cast_nonneg x
        linarith
      push_cast
      have : (0 : ℝ) ≤ ((j - b : ℕ) : ℝ) := Nat.cast_nonneg _
      linarith) (by
      have e : alpha * ((M : ℝ) - 1) / 2 = x - alpha / 2 := by
        rw [mul_sub, hax]
        ring
      have ha0 : 0 ≤ alpha := by
        by_contra hneg
        have : alpha * M < 0 := mul_neg_of_neg_of_pos (not_le.1 hneg) hMpos
        rw [hax] at this
        have : (0 : ℝ) ≤ x := Nat.cast_nonneg x
        linarith
      rw [e]
      have : (((j - (b - x) : ℕ) : ℝ)) + 1 + x ≤ M := by
        have : j - (b - x) + 1 + x ≤ M := by omega
        exact_mod_cast this
      linarith)
    rw [List.getD_eq_getElem?_getD, this]
    rfl

/-- C34: for a field with at most two dimensions of more than one point, with a sample that is not
zero, for all fractions `p ≤ q < 1` and all sets of dimensions: the result is a connected part of
the field, multiplied by a window for each of the given dimensions. Every position where the
projection (the mean of the absolute values over the other dimension) exceeds `q` times its maximum
is in this part, and the window is one there. All windows are between 0 and 1; a window which is
not constant vanishes at both ends. Axes are cut with the data. Partial: for three dimensions see
`autocutout_3d_violated`. -/
theorem autocutout_partial {V : Type} [MulAction ℝ V] (spl : Splines ℝ) (absV : V → ℝ)
    (h0 : ∀ v, 0 ≤ absV v) (f s : Fields.Field ℝ V) (hsq : f.squeeze spl = .ok s) (hs : s.Sound)
    (hn : s.shape.length ≤ 2) (idx : List ℕ) (hi : InBounds s.shape idx)
    (hv : 0 < absV (s.matrix.at' idx)) (p q : ℝ) (hpq : p ≤ q) (hq : q < 1) (L : List ℕ)
    (hL : L.Nodup) (hLn : ∀ d ∈ L, d < s.shape.length) (axes : Option (List ℤ))
    (hax : axes = some (L.map Int.ofNat) ∨ (axes = none ∧ L = List.range s.shape.length)) :
    ∃ (r : Fields.Field ℝ V) (lo hi : ℕ → ℕ) (win : ℕ → List ℝ),
      f.autocutout spl (fun m a => Compat.tukey m a) absV axes (p, q) = .ok r ∧
      r.name = s.name ∧ r.unit = s.unit ∧ r.ats = s.ats ∧ r.tao = s.tao ∧
      r.shape = (List.range s.shape.length).map (fun d => hi d - lo d) ∧
      List.Forall₂ SubAxis (s.axes.zip ((List.range s.shape.length).map
        fun d => Sel.part (lo d) (hi d))) r.axes ∧
      (∀ d < s.shape.length, lo d < hi d ∧ hi d ≤ s.shape.getD d 0 ∧
        (d ∉ L → lo d = 0 ∧ hi d = s.shape.getD d 0)) ∧
      (∀ d ∈ L, (win d).length = hi d - lo d ∧ (∀ x ∈ win d, 0 ≤ x ∧ x ≤ 1) ∧
        ((∀ x ∈ win d, x = 1) ∨ ((win d).head? = some 0 ∧ (win d).getLast? = some 0)) ∧
        ∀ j < s.shape.getD d 0, (∀ i < s.shape.getD d 0,
          projection absV s.matrix d i * q < projection absV s.matrix d j) →
            lo d ≤ j ∧ j < hi d ∧ (win d).getD (j - lo d) 0 = 1) ∧
      ∀ k, InBounds r.shape k → r.matrix.at' k =
        (L.map fun d => (win d).getD (k.getD d 0) 0).prod •
          s.matrix.at' ((List.range s.shape.length).map fun d => lo d + k.getD d 0) := by
  have cut := fun (d : ℕ) (hd : d < s.shape.length) =>
    cutAxis_real spl absV h0 hs hn hi hv p q hpq hq d hd
  have cut' : ∀ d, ∃ (e f : ℕ) (w : List ℝ), d < s.shape.length →
      (cutAxis spl (fun m a => Compat.tukey m a) absV s (p, q) d =
        .ok (d, ⟨some e, some f, false⟩, w) ∧
      e < f ∧ f ≤ s.shape.getD d 0 ∧ w.length = f - e ∧ (∀ x ∈ w, 0 ≤ x ∧ x ≤ 1) ∧
      ((∀ x ∈ w, x = 1) ∨ (w.head? = some 0 ∧ w.getLast? = some 0)) ∧
      ∀ j < s.shape.getD d 0, (∀ i < s.shape.getD d 0,
        projection absV s.matrix d i * q < projection absV s.matrix d j) →
          e ≤ j ∧ j < f ∧ w.getD (j - e) 0 = 1) := by
    intro d
    by_cases hd : d < s.shape.length
    · obtain ⟨e, f, w, h⟩ := cut d hd
      exact ⟨e, f, w, fun _ => h⟩
    · exact ⟨0, 0, [], fun h => absurd h hd⟩
  choose lo0 hi0 win hcut using cut'
  set lo : ℕ → ℕ := fun d => if d ∈ L then lo0 d else 0 with hlo
  set hi' : ℕ → ℕ := fun d => if d ∈ L then hi0 d else s.shape.getD d 0 with hhi
  have hl := ok_axes_length hs.ok
  have hlen : ∀ (d : ℕ) (ax : Axis ℝ), s.axes[d]? = some ax → s.shape.getD d 0 = ax.len := by
    intro d ax hax
    have : (s.axes.map Axis.len)[d]? = some ax.len := by rw [List.getElem?_map, hax]; rfl
    rw [hs.ok.lengths] at this
    rw [List.getD_eq_getElem?_getD, this]
    rfl
  have hpos : ∀ d < s.shape.length, 0 < s.shape.getD d 0 := by
    intro d hd
    rw [List.getD_eq_getElem _ _ hd]
    refine Nat.pos_of_ne_zero fun h => hs.nonempty ?_
    rw [← h]
    exact List.getElem_mem hd
  have hb : ∀ d < s.shape.length, lo d < hi' d ∧ hi' d ≤ s.shape.getD d 0 := by
    intro d hd
    simp only [hlo, hhi]
    split_ifs with h
    · have := hcut d hd
      exact ⟨this.2.1, this.2.2.1⟩
    · exact ⟨hpos d hd, le_refl _⟩
  -- the slices
  set keys : List (Key ℝ) := L.foldl (fun l d => l.set d (.slice ⟨some (lo0 d), some (hi0 d), false⟩))
    (List.replicate s.shape.length (.slice ⟨none, none, false⟩)) with hkeys
  have hkl : keys.length = s.shape.length := by
    have : ∀ (L : List ℕ) (l : List (Key ℝ)), (L.foldl (fun l d => l.set d
        (Key.slice ⟨some (lo0 d), some (hi0 d), false⟩)) l).length = l.length := by
      intro L
      induction L with
      | nil => intro l; rfl
      | cons d L ih => intro l; rw [List.foldl_cons, ih, List.length_set]
    rw [hkeys, this, List.length_replicate]
  have hkey : ∀ (d : ℕ) (k : Key ℝ), keys[d]? = some k →
      d < s.shape.length ∧ k = if d ∈ L then .slice ⟨some (lo0 d), some (hi0 d), false⟩
        else .slice ⟨none, none, false⟩ := by
    intro d k hk
    have hd : d < s.shape.length := by rw [← hkl]; exact (List.getElem?_eq_some_iff.1 hk).1
    refine ⟨hd, ?_⟩
    rw [hkeys, foldl_set_get (fun d => Key.slice ⟨some (lo0 d), some (hi0 d), false⟩),
      List.length_replicate] at hk
    split_ifs with h
    · rw [if_pos ⟨h, hd⟩] at hk
      exact (Option.some.inj hk).symm
    · rw [if_neg (fun h' => h h'.1), List.getElem?_replicate, if_pos hd] at hk
      exact (Option.some.inj hk).symm
  have hsl : ∀ (d : ℕ) (ax : Axis ℝ) (k : Key ℝ), s.axes[d]? = some ax → keys[d]? = some k →
      ∃ sl : Slice, k = .slice sl ∧ sl.backward = false ∧ (∀ i, sl.start = some i → 0 ≤ i) ∧
        sl.stop ≠ some 0 ∧
        sliceFwd (List.range ax.len) sl.start sl.stop = (List.range (hi' d)).drop (lo d) := by
    intro d ax k hax hk
    obtain ⟨hd, rfl⟩ := hkey d k hk
    have hbd := hb d hd
    have := hlen d ax hax
    by_cases h : d ∈ L
    · rw [if_pos h]
      have e1 : lo d = lo0 d := by simp [hlo, h]
      have e2 : hi' d = hi0 d := by simp [hhi, h]
      rw [e1, e2] at hbd ⊢
      refine ⟨_, rfl, rfl, ?_, ?_, sliceFwd_range hbd.1 (by omega)⟩
      · intro i hi
        cases hi
        omega
      · intro h0
        have h0 : ((hi0 d : ℕ) : ℤ) = 0 := Option.some.inj h0
        omega
    · rw [if_neg h]
      have e1 : lo d = 0 := by simp [hlo, h]
      have e2 : hi' d = ax.len := by simp only [hhi, if_neg h]; exact this
      rw [e1, e2]
      exact ⟨_, rfl, rfl, by simp, by simp, by simp [sliceFwd]⟩
  obtain ⟨r, sels, g1, g2, g3, g4, g5, g6, g7, g8, g9, g10, g11⟩ := getitem_sound spl hs keys hkl
    (by omega) (by
      intro d ax k hax hk
      obtain ⟨sl, rfl, h1, h2, h3, h4⟩ := hsl d ax k hax hk
      refine ⟨h1, h2, h3, ?_⟩
      rw [h4]
      have hd := (hkey d _ hk).1
      have := hb d hd
      intro h0
      have := congrArg List.length h0
      simp at this
      omega)
  have hsels : sels = (List.range s.shape.length).map fun d => Sel.part (lo d) (hi' d) := by
    apply List.ext_getElem?
    intro d
    by_cases hd : d < s.shape.length
    · have e1 : s.axes[d]? = some (s.axes[d]'(by omega)) := List.getElem?_eq_getElem _
      have e2 : sels[d]? = some (sels[d]'(by omega)) := List.getElem?_eq_getElem _
      have e3 : keys[d]? = some (keys[d]'(by omega)) := List.getElem?_eq_getElem _
      have hm := g4 d _ _ _ e1 e3 e2
      obtain ⟨sl, hk, -, -, -, h4⟩ := hsl d _ _ e1 e3
      rw [e2, List.getElem?_map, List.getElem?_range hd]
      simp only [Option.map_some, Option.some.injEq]
      rw [hk] at hm
      generalize sels[d]'(by omega) = sel at hm
      cases sel with
      | one k => exact hm.elim
      | part a b =>
        have hm : sliceFwd (List.range (s.axes[d]'(by omega)).len) sl.start sl.stop =
          (List.range b).drop a := hm
        rw [h4] at hm
        obtain ⟨rfl, rfl⟩ := range_drop_drop (hb d hd).1 hm
        rfl
    · rw [List.getElem?_eq_none (by omega), List.getElem?_eq_none (by simp; omega)]
  have hflag : sels.map Sel.isOne = List.replicate s.shape.length false := by
    rw [hsels, List.map_map, List.eq_replicate_iff]
    refine ⟨by simp, ?_⟩
    intro b hb
    obtain ⟨d, _, rfl⟩ := List.mem_map.1 hb
    rfl
  have hunf : ∀ {α : Type} (n : ℕ) (l : List α), l.length = n →
      unflagged (List.replicate n false) l = l := by
    intro α n l hl
    induction l generalizing n with
    | nil => cases n <;> rfl
    | cons a l ih =>
      obtain ⟨n, rfl⟩ : ∃ m, n = m + 1 := ⟨n - 1, by simp at hl; omega⟩
      rw [List.replicate_succ, unflagged, ih n (by simpa using hl)]
      rfl
  have hshape : r.shape = (List.range s.shape.length).map (fun d => hi' d - lo d) := by
    rw [g7, hsels]
    generalize List.range s.shape.length = l
    induction l with
    | nil => rfl
    | cons d l ih => rw [List.map_cons, List.map_cons, selShape, ih]
  -- the windows
  obtain ⟨m, m1, m2, m3⟩ := scale_all (a := r.matrix) (n := s.shape.length)
    (C := L.map fun d => (d, (⟨some (lo0 d), some (hi0 d), false⟩ : Slice), win d)) (by
      show r.shape.length = _
      rw [hshape]
      simp) (by
      intro c hc
      obtain ⟨d, hd, rfl⟩ := List.mem_map.1 hc
      have hdn := hLn d hd
      show r.shape[d]? = _
      rw [hshape, List.getElem?_map, List.getElem?_range hdn]
      have e1 : lo d = lo0 d := by simp [hlo, hd]
      have e2 : hi' d = hi0 d := by simp [hhi, hd]
      simp only [Option.map_some, e1, e2]
      rw [(hcut d hdn).2.2.2.1])
  refine ⟨⟨r.name, r.unit, m, r.axes, r.ats, r.tao⟩, lo, hi', win, ?_, g5, g6, ?_, ?_, ?_, ?_, ?_, ?_,
    ?_⟩
  · unfold Field.autocutout
    rw [hsq]
    have eax : axes.getD s.rangeDims = L.map Int.ofNat := by
      rcases hax with rfl | ⟨rfl, rfl⟩
      · rfl
      · show s.rangeDims = _
        unfold Field.rangeDims
        rw [dims_sound hs, Int.toNat_natCast]
    have end1 : (L.map Int.ofNat).Nodup := hL.map (fun a b h => Int.ofNat.inj h)
    have emap : (L.map Int.ofNat).mapM (fun axis => cutAxis spl (fun m a => Compat.tukey m a) absV s
        (p, q) axis) = .ok (L.map fun d => (d, (⟨some (lo0 d), some (hi0 d), false⟩ : Slice), win d)) := by
      refine mapM_of_get (by simp) ?_
      intro k a b hka hkb
      rw [List.getElem?_map] at hka hkb
      cases hk : L[k]? with
      | none => rw [hk] at hka; cases hka
      | some d =>
        rw [hk] at hka hkb
        cases hka
        cases hkb
        exact (hcut d (hLn d (List.mem_of_getElem? hk))).1
    have ekeys : (L.map fun d => (d, (⟨some (lo0 d), some (hi0 d), false⟩ : Slice), win d)).foldl
        (fun l c => l.set c.1 (.slice c.2.1))
        (List.replicate s.dims.toNat (Key.slice ⟨none, none, false⟩ : Key ℝ)) = keys := by
      rw [List.foldl_map, dims_sound hs, Int.toNat_natCast]
    simp only [bind, Except.bind, eax, end1, not_true, if_false, emap, ekeys, g1]
    rw [dims_sound hs, Int.toNat_natCast, m1]
    simp only
    unfold Field.replaceData
    rw [if_neg (not_not.2 (show m.shape = r.shape from m2))]
  · show r.ats = s.ats
    rw [g9, hflag, hunf _ _ hs.ok.states]
  · show r.tao = s.tao
    rw [g10, hflag, hunf _ _ hs.ok.origins]
  · exact m2.trans hshape
  · have := g8
    rw [hflag, hunf _ _ (by rw [List.length_zip, hl, g3, min_self]), hsels] at this
    exact this
  · intro d hd
    refine ⟨(hb d hd).1, (hb d hd).2, fun h => ?_⟩
    simp [hlo, hhi, h]
  · intro d hd
    have h := hcut d (hLn d hd)
    have e1 : lo d = lo0 d := by simp [hlo, hd]
    have e2 : hi' d = hi0 d := by simp [hhi, hd]
    rw [e1, e2]
    exact ⟨h.2.2.2.1, h.2.2.2.2.1, h.2.2.2.2.2.1, h.2.2.2.2.2.2⟩
  · intro k hk
    have hk' : InBounds r.shape k := by rw [← (show m.shape = r.shape from m2)]; exact hk
    show m.at' k = _
    rw [m3 k hk', List.map_map]
    congr 1
    rw [g11 k hk', hsels]
    congr 1
    have hkl : k.length = (List.range s.shape.length).length := by
      rw [hk'.1, hshape, List.length_map]
    clear hk hk' g11 m3
    have gen : ∀ (l : List ℕ) (k : List ℕ) (n : ℕ), l = (List.range l.length).map (n + ·) →
        k.length = l.length →
        selIdx (l.map fun d => Sel.part (lo d) (hi' d)) k = l.map fun d => lo d + k.getD (d - n) 0 := by
      intro l
      induction l with
      | nil => intro k n _ _; rfl
      | cons d l ih =>
        intro k n hl hk
        cases k with
        | nil => simp at hk
        | cons i k =>
          rw [List.length_cons, List.range_succ_eq_map, List.map_cons, List.map_map] at hl
          obtain ⟨hd, hl⟩ := List.cons_eq_cons.1 hl
          have hl' : l = (List.range l.length).map (n + 1 + ·) := by
            rw [hl, List.length_map, List.length_range]
            apply List.map_congr_left
            intro a _
            simp only [Function.comp]
            omega
          rw [List.map_cons, selIdx, ih k (n + 1) hl' (by simpa using hk), List.map_cons]
          have : d - n = 0 := by omega
          rw [this]
          simp only [List.getD_cons_zero]
          congr 1
          apply List.map_congr_left
          intro a ha
          rw [hl'] at ha
          obtain ⟨b, _, rfl⟩ := List.mem_map.1 ha
          have : n + 1 + b - n = (n + 1 + b - (n + 1)) + 1 := by omega
          rw [this, List.getD_cons_succ]
    have := gen (List.range s.shape.length) k 0 (by simp) hkl
    simpa using this

example (spl : Splines ℝ) : ∃ (s r : Fields.Field ℝ ℂ), s.shape = [3, 2] ∧
    field32.autocutout spl (fun m a => Compat.tukey m a) (fun v => ‖v‖) none (1 / 1000, 1 / 500) =
      .ok r := by
  obtain ⟨s, h1, h2, -, -, h5, -, h7⟩ := squeeze_partial spl field32 field32_sound (by decide)
  have hsh : s.shape = [3, 2] := h5
  have hb : InBounds s.shape [1, 1] := by
    rw [hsh]
    refine ⟨rfl, ?_⟩
    intro d i n hi hn
    match d, hi, hn with
    | 0, hi, hn => cases hi; cases hn; decide
    | 1, hi, hn => cases hi; cases hn; decide
    | d + 2, hi, hn => cases hi
  obtain ⟨r, _, _, _, h, _⟩ := autocutout_partial spl (fun v : ℂ => ‖v‖) (fun v => norm_nonneg v) field32 s
    h1 h2 (by rw [hsh]; decide) [1, 1] hb (by
      rw [h7 _ hb, norm_pos_iff]
      intro h0
      have := congrArg Complex.re h0
      simp [field32, unsqueeze, Field.shape] at this) (1 / 1000) (1 / 500) (by norm_num) (by norm_num)
    (List.range s.shape.length) List.nodup_range (fun d hd => List.mem_range.1 hd) none
    (Or.inr ⟨rfl, rfl⟩)
  exact ⟨s, r, hsh, h⟩

/-- C34 fails for three dimensions: `autocutout()` of every field with three dimensions of more than
one point raises an IndexError, because the averages over the other dimensions are taken one after
the other with the numbers of the full field. -/
theorem autocutout_3d_violated {K V : Type} [_root_.Field K] [LinearOrder K] [IsStrictOrderedRing K]
    [SMul K V] (spl : Splines K) (tuk : ℤ → K → Res (List K)) (absV : V → K) (f s : Fields.Field K V)
    (hsq : f.squeeze spl = .ok s) (hs : s.Sound) (hn : s.shape.length = 3) (fractions : K × K) :
    f.autocutout spl tuk absV none fractions = .error .indexError := by
  have ha := absField_sound absV hs
  obtain ⟨m, k, l, hsh⟩ : ∃ m k l, s.shape = [m, k, l] := by
    match h : s.shape, hn with
    | [m, k, l], _ => exact ⟨m, k, l, rfl⟩
  have hal : (absField absV s).shape = [m, k, l] := hsh
  have hr := reduce_sound spl meanList ha (l := [1]) (p := [1]) (by
    rw [hal]
    exact List.Forall₂.cons rfl List.Forall₂.nil) (by simp) (Or.inr (by simp)) (by
    rw [hal]
    simp [flags, unflagged, List.range_succ])
  obtain ⟨p, hp, hpa⟩ : ∃ p, (absField absV s).reduce spl meanList (some [1]) false = .ok p ∧
      p.axes = unflagged (flags [m, k, l].length [1]) s.axes := ⟨_, hr, by rw [hal]; rfl⟩
  have hl := ok_axes_length hs.ok
  obtain ⟨a0, a1, a2, hax⟩ : ∃ a0 a1 a2, s.axes = [a0, a1, a2] := by
    rw [hn] at hl
    match h : s.axes, hl with
    | [a0, a1, a2], _ => exact ⟨a0, a1, a2, rfl⟩
  have hpa' : p.axes = [a0, a2] := by rw [hpa, hax]; rfl
  have hfail : p.reduce spl meanList (some [2]) false = .error .indexError := by
    unfold Field.reduce
    have : delAll p.axes (sortDesc ([2] : List ℤ)) = .error .indexError := by rw [hpa']; rfl
    simp only [Option.getD_some, this]
    rfl
  have hproj : projectAxes spl s.shape.length 0 (absField absV s) = .error .indexError := by
    rw [hn]
    unfold projectAxes
    simp only [List.range_succ, List.range_zero, List.nil_append, List.cons_append,
      List.foldlM_cons, List.foldlM_nil]
    rw [if_neg (by simp)]
    simp only [bind, Except.bind]
    rw [if_pos (by simp), show ((1 : ℕ) : ℤ) = 1 from rfl, hp]
    simp only
    rw [if_pos (by simp), show ((2 : ℕ) : ℤ) = 2 from rfl, hfail]
  have hcut : cutAxis spl tuk absV s fractions 0 = .error .indexError := by
    unfold cutAxis
    rw [dims_sound hs, Int.toNat_natCast]
    show (projectAxes spl s.shape.length 0 (absField absV s) >>= _) = _
    rw [hproj]
    rfl
  have hdims : s.rangeDims = [0, 1, 2] := by
    unfold Field.rangeDims
    rw [dims_sound hs, hn]
    rfl
  unfold Field.autocutout
  rw [hsq]
  have nd : ([0, 1, 2] : List ℤ).Nodup := by decide
  simp only [bind, Except.bind, Option.getD_none, hdims, nd, not_true, if_false, List.mapM_cons, hcut]

/-- A field without any values but zero: `autocutout()` raises an IndexError. -/
theorem autocutout_zero_violated :
    ((({ field43 with matrix := ⟨[4, 3], fun _ => 0⟩ } : Fields.Field ℚ ℚ).autocutout midSplines
      (fun m _ => .ok (List.replicate m.toNat 1)) (fun v => |v|) none (1 / 1000, 1 / 500)).map values) =
      .error .indexError := by
  decide +kernel

/-- The documentation of `autocutout` says that the part which is cut out lies between the outer
bounds, those of the smaller fraction. This is wrong: here the outer bounds are 0 and 3, and the
part reaches from 0 to 5. -/
theorem autocutout_bounds_violated :
    maxFracBounds ([3 / 2000, 3 / 2000, 1, 0, 0] : List ℚ) (1 / 1000) = .ok (0, 3) ∧
    maxFracBounds ([3 / 2000, 3 / 2000, 1, 0, 0] : List ℚ) (1 / 500) = .ok (2, 3) ∧
    (cutRange ([3 / 2000, 3 / 2000, 1, 0, 0] : List ℚ) (1 / 1000, 1 / 500)).map (fun r => (r.1, r.2.1)) =
      .ok (0, 5) := by
  decide +kernel

/-- C34 fails for negative numbers of dimensions: the projection averages over all dimensions. -/
theorem autocutout_negative_violated :
    (field43.autocutout midSplines (fun m _ => .ok (List.replicate m.toNat 1)) (fun v => |v|)
      (some [-1]) (1 / 1000, 1 / 500)).map values = .error .indexError ∧
    ((field43.autocutout midSplines (fun m _ => .ok (List.replicate m.toNat 1)) (fun v => |v|)
      (some [1]) (1 / 1000, 1 / 500)).map fun r => r.shape) = .ok [4, 3] := by
  decide +kernel

end Postpic.Props
