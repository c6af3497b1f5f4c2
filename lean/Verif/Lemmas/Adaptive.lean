import Verif.Lemmas.FftPad
import Verif.Lemmas.FieldNodes
import Verif.Lemmas.Propagate
import Verif.Model.Adaptive
import Verif.Lemmas.Autoreduce
import Verif.Spec.Adaptive

/-!
# Lemmas for the adaptive propagation
-/

set_option autoImplicit false

namespace Postpic.Spec

open Postpic Postpic.Axes Postpic.Fields

noncomputable section

/-! ### Padding -/

theorem Embedded.of_pad (m : Arr ℂ) {p : List (ℕ × ℕ)} (hp : p.length = m.shape.length) :
    Embedded m (m.pad p 0) (p.map (·.1)) := by
  have hsh : (m.pad p 0).shape = List.zipWith (fun n (q : ℕ × ℕ) => q.1 + n + q.2) m.shape p := rfl
  have hlen : (m.pad p 0).shape.length = m.shape.length := by rw [hsh]; simp [hp]
  refine ⟨by simp [hp], hlen, ?_, ?_, ?_⟩
  · intro d o n N ho hn hN
    rw [List.getElem?_map] at ho
    obtain ⟨q, hq, rfl⟩ := Option.map_eq_some_iff.1 ho
    rw [hsh, List.getElem?_zipWith, hn, hq] at hN
    cases hN
    omega
  · intro j hj
    refine pad_inside m 0 hp hj (by simp [hp, hj.1]) ?_
    intro d k q hk hq
    rw [List.getElem?_zipWith, List.getElem?_map, hq, hk]
    rfl
  · rintro idx hidx ⟨d, i, o, n, hi, ho, hn, h⟩
    rw [List.getElem?_map] at ho
    obtain ⟨q, hq, rfl⟩ := Option.map_eq_some_iff.1 ho
    exact pad_outside m 0 hp (hidx.1.trans hlen) ⟨d, i, n, q, hi, hq, hn, by omega⟩

theorem Embedded.trans {a b c : Arr ℂ} {off off' : List ℕ} (h1 : Embedded a b off) (h2 : Embedded b c off') :
    Embedded a c (List.zipWith (· + ·) off' off) := by
  have l1 := h1.offsets
  have l2 := h2.offsets
  have l3 := h1.dims
  have l4 := h2.dims
  refine ⟨by simp; omega, by omega, ?_, ?_, ?_⟩
  · intro d o n N ho hn hN
    rw [List.getElem?_zipWith] at ho
    have hd := (List.getElem?_eq_some_iff.1 hn).1
    have e1 : off[d]? = some (off[d]'(by omega)) := List.getElem?_eq_getElem _
    have e2 : off'[d]? = some (off'[d]'(by omega)) := List.getElem?_eq_getElem _
    have e3 : b.shape[d]? = some (b.shape[d]'(by omega)) := List.getElem?_eq_getElem _
    rw [e1, e2] at ho
    cases ho
    have := h1.room d _ _ _ e1 hn e3
    have := h2.room d _ _ _ e2 e3 hN
    omega
  · intro j hj
    rw [← h1.inside j hj, ← h2.inside]
    · congr 1
      apply List.ext_getElem?
      intro d
      simp only [List.getElem?_zipWith]
      cases off'[d]? <;> cases off[d]? <;> cases j[d]? <;> simp [add_assoc]
    · refine ⟨by simp [l1, l3, hj.1], ?_⟩
      intro d i n hi hn
      rw [List.getElem?_zipWith] at hi
      have hd := (List.getElem?_eq_some_iff.1 hn).1
      have hjl := hj.1
      have e1 : off[d]? = some (off[d]'(by omega)) := List.getElem?_eq_getElem _
      have e2 : j[d]? = some (j[d]'(by omega)) := List.getElem?_eq_getElem _
      have e3 : a.shape[d]? = some (a.shape[d]'(by omega)) := List.getElem?_eq_getElem _
      rw [e1, e2] at hi
      cases hi
      have := h1.room d _ _ _ e1 e3 hn
      have := hj.2 d _ _ e2 e3
      omega
  · rintro idx hidx ⟨d, i, o, n, hi, ho, hn, h⟩
    by_cases hout : ∃ d i o n : ℕ, idx[d]? = some i ∧ off'[d]? = some o ∧ b.shape[d]? = some n ∧ (i < o ∨ o + n ≤ i)
    · exact h2.outside idx hidx hout
    · have hin : ∀ d i o n : ℕ, idx[d]? = some i → off'[d]? = some o → b.shape[d]? = some n → o ≤ i ∧ i < o + n := by
        intro d i o n a1 a2 a3
        by_contra hc
        exact hout ⟨d, i, o, n, a1, a2, a3, by omega⟩
      have hil := hidx.1
      let j : List ℕ := List.zipWith (· - ·) idx off'
      have hj : ∀ d (hd : d < idx.length), j[d]? = some (idx[d] - off'[d]'(by omega)) := by
        intro d hd
        simp only [j]
        rw [List.getElem?_zipWith, List.getElem?_eq_getElem hd, List.getElem?_eq_getElem (by omega)]
      have hjb : InBounds b.shape j := by
        refine ⟨by simp [j]; omega, ?_⟩
        intro e i' n' hi' hn'
        have he := (List.getElem?_eq_some_iff.1 hn').1
        rw [hj e (by omega)] at hi'
        cases hi'
        have := hin e _ _ _ (List.getElem?_eq_getElem (by omega)) (List.getElem?_eq_getElem (by omega)) hn'
        omega
      have hidxj : idx = List.zipWith (· + ·) off' j := by
        apply List.ext_getElem?
        intro e
        rw [List.getElem?_zipWith]
        by_cases he : e < idx.length
        · rw [hj e he, List.getElem?_eq_getElem he, List.getElem?_eq_getElem (l := off') (by omega)]
          have := hin e _ _ _ (List.getElem?_eq_getElem he) (List.getElem?_eq_getElem (by omega))
            (List.getElem?_eq_getElem (by omega))
          simp only [Option.some.injEq]
          omega
        · rw [List.getElem?_eq_none (by omega), List.getElem?_eq_none (l := off') (by omega)]
      rw [hidxj, h2.inside j hjb]
      have hd := (List.getElem?_eq_some_iff.1 hi).1
      rw [List.getElem?_zipWith, List.getElem?_eq_getElem (l := off') (by omega),
        List.getElem?_eq_getElem (l := off) (by omega)] at ho
      have hid : idx[d] = i := by
        rw [List.getElem?_eq_getElem hd] at hi
        exact Option.some.inj hi
      have ho : off'[d]'(by omega) + off[d]'(by omega) = o := Option.some.inj ho
      have := hin d _ _ _ (List.getElem?_eq_getElem hd) (List.getElem?_eq_getElem (by omega))
            (List.getElem?_eq_getElem (by omega))
      exact h1.outside j hjb ⟨d, _, _, n, hj d hd, List.getElem?_eq_getElem (by omega), hn, by omega⟩

variable {f : Field ℝ ℂ} {shape : List ℕ} {x0 h : ℕ → ℝ}

theorem OnGrid.pad {spl : Splines ℝ} (hspl : ExactOnEven spl) (hg : OnGrid f shape false x0 h)
    {w : List (PadWidth ℝ × PadWidth ℝ)} {p : List (ℕ × ℕ)} (hw : w.length = shape.length) (hp : p.length = shape.length)
    (hm : ∀ (d : ℕ) wd pd, w[d]? = some wd → p[d]? = some pd →
      MeansCells (h d) wd.1 pd.1 ∧ MeansCells (h d) wd.2 pd.2) :
    ∃ r, f.pad spl w 0 = .ok r ∧ r.name = f.name ∧ r.unit = f.unit ∧
      OnGrid r (List.zipWith (fun n (q : ℕ × ℕ) => q.1 + n + q.2) shape p) false
        (fun d => x0 d - (p.getD d (0, 0)).1 * h d) h ∧ Embedded f.matrix r.matrix (p.map (·.1)) := by
  have hsh : f.shape = shape := hg.size
  obtain ⟨r, h1, h2, h3, h4, h5, h6, h7⟩ := pad_sound (w := w) (p := p)
    (eh := (List.range shape.length).map fun d => (x0 d - h d / 2, h d)) hspl hg.sound (by rw [hsh]; exact hg.some_dim)
    (by rw [hsh]; exact hw) (by rw [hsh]; exact hp) (by rw [hsh]; simp) (by
      intro d ax wd pd x a1 a2 a3 a4
      have hd : d < shape.length := by
        have := (List.getElem?_eq_some_iff.1 a3).1
        omega
      obtain ⟨ax', b1, b2⟩ := hg.spatial rfl d hd
      rw [a1] at b1
      cases b1
      rw [List.getElem?_map, List.getElem?_range hd] at a4
      cases a4
      exact ⟨b2, hg.pos d hd, hm d wd pd a2 a3⟩) 0
  have hsr : r.shape = List.zipWith (fun n (q : ℕ × ℕ) => q.1 + n + q.2) shape p := by
    show r.matrix.shape = _
    rw [h5, ← hsh]
    rfl
  have hlr : r.shape.length = shape.length := by rw [hsr]; simp [hp]
  have hax : ∀ d < shape.length, ∃ ax ax' q, f.axes[d]? = some ax ∧ p[d]? = some q ∧ shape[d]? = some ax.len ∧
      r.axes[d]? = some ax' ∧ EvenAxis ax' (x0 d - q.1 * h d - h d / 2) (h d) ∧ ax'.len = q.1 + ax.len + q.2 := by
    intro d hd
    obtain ⟨ax, a1, a2⟩ := hg.spatial rfl d hd
    have e1 : p[d]? = some p[d] := List.getElem?_eq_getElem (by omega)
    obtain ⟨c1, -⟩ := h7 d ax _ (x0 d - h d / 2, h d) a1 e1 (by
      rw [List.getElem?_map, List.getElem?_range hd]
      rfl)
    obtain ⟨g1, g2, -, -⟩ := paddedAxis_even a2 p[d]
    refine ⟨ax, _, _, a1, e1, hg.axis_len a1, c1, ?_, g2⟩
    rw [show x0 d - (p[d].1 : ℝ) * h d - h d / 2 = x0 d - h d / 2 - p[d].1 * h d by ring]
    exact g1
  have hlens : r.axes.map Axis.len = r.shape := by
    have hl := ok_axes_length hg.sound.ok
    rw [hsh] at hl
    apply List.ext_getElem?
    intro d
    rw [List.getElem?_map, hsr, List.getElem?_zipWith]
    by_cases hd : d < shape.length
    · obtain ⟨ax, ax', q, a1, a2, a3, a4, a5, a6⟩ := hax d hd
      rw [a4, a3, a2]
      simp [a6]
    · rw [List.getElem?_eq_none (by omega), List.getElem?_eq_none (l := shape) (by omega)]
      rfl
  have htwo : ∀ n ∈ r.shape, 2 ≤ n := by
    intro n hn
    obtain ⟨d, hd⟩ := List.mem_iff_getElem?.1 hn
    have hdl := (List.getElem?_eq_some_iff.1 hd).1
    obtain ⟨ax, ax', q, a1, a2, a3, a4, a5, a6⟩ := hax d (by omega)
    rw [hsr, List.getElem?_zipWith, a3, a2] at hd
    cases hd
    have := hg.two _ (List.mem_of_getElem? a3)
    omega
  obtain ⟨l, -, -, k3, -, k5⟩ := pad_eq hg.sound.ok h1
  have htao : r.tao.length = r.shape.length := by
    have : r.tao.length = l.length := by rw [k5]; simp
    rw [this, k3, hsh, hlr]
  refine ⟨r, h1, h2, h3, ⟨⟨⟨hlens, ?_, htao⟩, ?_, ?_⟩, hsr, ?_, ?_, ?_, ?_, ?_, ?_, ?_⟩, ?_⟩
  · rw [h4, hg.sound.ok.states, hsh, hlr]
  · intro ax' hmem
    obtain ⟨d, hd⟩ := List.mem_iff_getElem?.1 hmem
    have hdl := (List.getElem?_eq_some_iff.1 hd).1
    have hl := ok_axes_length hg.sound.ok
    rw [hsh] at hl
    obtain ⟨ax, ax2, q, a1, a2, a3, a4, a5, a6⟩ := hax d (by omega)
    rw [hd] at a4
    cases a4
    exact even_valid a5 (hg.pos d (by omega))
  · intro h0
    have := htwo 0 h0
    omega
  · rw [← hsr]
    intro h0
    rw [h0] at hlr
    exact hg.some_dim (List.length_eq_zero_iff.1 hlr.symm)
  · rw [← hsr, hlr]
    exact hg.three
  · rw [← hsr]
    exact htwo
  · intro d hd
    rw [← hsr, hlr] at hd
    exact hg.pos d hd
  · intro d hd
    rw [← hsr, hlr] at hd
    rw [h4]
    exact hg.states d hd
  · intro _ d hd
    rw [← hsr, hlr] at hd
    obtain ⟨ax, ax', q, a1, a2, a3, a4, a5, a6⟩ := hax d hd
    refine ⟨ax', a4, ?_⟩
    rw [List.getD_eq_getElem?_getD, a2]
    exact a5
  · intro h0
    cases h0
  · rw [h5]
    exact Embedded.of_pad f.matrix (by rw [← hsh] at hp; exact hp)

theorem OnGrid.autopad {spl : Splines ℝ} (hspl : ExactOnEven spl) (hg : OnGrid f shape false x0 h)
    {padsize : ℕ → Res ℕ} {t : ℕ → ℕ} (ht : ∀ l ∈ shape, padsize l = .ok (t l) ∧ l ≤ t l) :
    ∃ (r : Field ℝ ℂ) (p : List (ℕ × ℕ)), f.fftAutopad spl none padsize 0 = .ok r ∧ r.name = f.name ∧ r.unit = f.unit ∧
      p.length = shape.length ∧ OnGrid r (shape.map t) false (fun d => x0 d - (p.getD d (0, 0)).1 * h d) h ∧
      Embedded f.matrix r.matrix (p.map (·.1)) := by
  have hsh : f.shape = shape := hg.size
  have hdims : f.dims.toNat = f.shape.length := by rw [dims_sound hg.sound]; simp
  obtain ⟨w, w1, w2, w3⟩ := autopadWidths_spec (shape := f.shape) (padsize := padsize) (t := t) (by rw [hsh]; exact ht) f.rangeDims
    (List.replicate f.dims.toNat (0, 0)) (by simpa using hdims) (by
      intro a ha
      unfold Field.rangeDims at ha
      obtain ⟨d, hd, rfl⟩ := List.mem_map.1 ha
      rw [List.mem_range, hdims] at hd
      exact ⟨d, pyIdx_nat hd⟩)
  rw [List.length_replicate, hdims, hsh] at w2
  have hwd : ∀ d l : ℕ, shape[d]? = some l → w[d]? = some (((halves l (t l)).1 : ℤ), ((halves l (t l)).2 : ℤ)) := by
    intro d l hl
    have hd := (List.getElem?_eq_some_iff.1 hl).1
    rw [w3 d l (by rw [hsh]; exact hl), if_pos]
    refine ⟨(d : ℤ), ?_, pyIdx_nat (by rw [hsh]; exact hd)⟩
    unfold Field.rangeDims
    exact List.mem_map.2 ⟨d, List.mem_range.2 (by rw [hdims, hsh]; exact hd), rfl⟩
  obtain ⟨r, h1, h2, h3, h4, h5⟩ := hg.pad hspl (w := w.map fun q => (.cells q.1, .cells q.2))
    (p := shape.map fun l => halves l (t l)) (by simp [w2]) (by simp) (by
      intro d wd pd a1 a2
      rw [List.getElem?_map] at a1 a2
      obtain ⟨l, hl, rfl⟩ := Option.map_eq_some_iff.1 a2
      rw [hwd d l hl] at a1
      cases a1
      exact ⟨rfl, rfl⟩)
  refine ⟨r, shape.map fun l => halves l (t l), ?_, h2, h3, by simp, ?_, h5⟩
  · unfold Field.fftAutopad
    simp only [Option.getD_none]
    rw [w1]
    exact h1
  · have : List.zipWith (fun n (q : ℕ × ℕ) => q.1 + n + q.2) shape (shape.map fun l => halves l (t l)) = shape.map t := by
      apply List.ext_getElem?
      intro d
      rw [List.getElem?_zipWith, List.getElem?_map, List.getElem?_map]
      cases hl : shape[d]? with
      | none => rfl
      | some l =>
        simp only [Option.map_some, Option.some.injEq]
        exact halves_sum (ht l (List.mem_of_getElem? hl)).2
    rw [← this]
    exact h4

/-! ### The parts of a step -/

theorem halveLoop_id {spl : Splines ℝ} {i fuel : ℕ} {maxlen : ℤ} {ax : Axis ℝ} (hax : f.axes[i]? = some ax)
    (hl : (ax.len : ℤ) ≤ maxlen) : halveLoop spl maxlen i (fuel + 1) f = some (.ok f) := by
  unfold halveLoop
  rw [hax]
  simp only
  rw [if_neg (by omega)]

theorem reduceLoop_id {spl : Splines ℝ} {fuel : ℕ} {maxlen : ℤ} : ∀ L : List ℕ,
    (∀ i ∈ L, ∃ ax, f.axes[i]? = some ax ∧ (ax.len : ℤ) ≤ maxlen) → reduceLoop spl maxlen (fuel + 1) L f = some (.ok f)
  | [], _ => rfl
  | i :: L, h => by
    obtain ⟨ax, h1, h2⟩ := h i (by simp)
    unfold reduceLoop
    rw [halveLoop_id h1 h2]
    exact reduceLoop_id L fun j hj => h j (by simp [hj])

theorem OnGrid.reduced {state : Bool} (spl : Splines ℝ) (hg : OnGrid f shape state x0 h) (hl : ∀ n ∈ shape, n ≤ 4000) :
    reduced spl f = .ok f := by
  unfold Fields.reduced Field.autoreduce
  rw [reduceLoop_id]
  intro i hi
  rw [List.mem_range] at hi
  refine ⟨f.axes[i], List.getElem?_eq_getElem hi, ?_⟩
  have := hl _ (List.mem_of_getElem? (hg.axis_len (List.getElem?_eq_getElem hi)))
  exact_mod_cast this

theorem OnGrid.coarse (spl : Splines ℝ) (hg : OnGrid f shape false x0 h) :
    ∃ R, Fields.reduced spl f = .ok R ∧ Reduced 4000 f R ∧
      OnGrid R (coarseShape shape) false (coarseFirst shape x0 h) (coarseSize shape h) := by
  have hfuel : ∀ n ∈ f.shape, n < f.shape.foldr max 0 + 1 := by
    intro n hn
    have : ∀ l : List ℕ, n ∈ l → n ≤ l.foldr max 0 := by
      intro l
      induction l with
      | nil => simp
      | cons a l ih =>
        intro h
        rcases List.mem_cons.1 h with rfl | h
        · exact le_max_left _ _
        · exact le_trans (ih h) (le_max_right _ _)
    have := this _ hn
    omega
  obtain ⟨R, h1, h2, h3⟩ := autoreduce_reduced spl (m := 4000) (by decide) _ hg.sound (by rw [hg.size]; exact hg.three) hfuel
  have hsize : R.shape = coarseShape shape := by rw [h3.shape, hg.size]; rfl
  have hlen : (coarseShape shape).length = shape.length := by simp [coarseShape]
  refine ⟨R, ?_, h3, ⟨h2, hsize, ?_, by rw [hlen]; exact hg.three, ?_, ?_, ?_, ?_, by simp⟩⟩
  · unfold Fields.reduced
    have h1' : f.autoreduce spl 4000 (f.shape.foldr max 0 + 1) = some (.ok R) := h1
    rw [h1']
  · intro h0
    exact hg.some_dim (List.map_eq_nil_iff.1 h0)
  · intro n hn
    obtain ⟨m, hm, rfl⟩ := List.mem_map.1 hn
    have h2m := hg.two m hm
    rcases Nat.eq_zero_or_pos (halvings 4000 m) with h0 | h0
    · rw [h0]
      simpa using h2m
    · have := halvings_least (m := 4000) (n := m) (k := halvings 4000 m - 1) (by omega)
      have e : m / 2 ^ halvings 4000 m = m / 2 ^ (halvings 4000 m - 1) / 2 := by
        rw [Nat.div_div_eq_div_mul, ← pow_succ, Nat.sub_add_cancel h0]
      omega
  · intro d hd
    rw [hlen] at hd
    exact mul_pos (by positivity) (hg.pos d hd)
  · intro d hd
    rw [hlen] at hd
    rw [h3.states]
    exact hg.states d hd
  · intro _ d hd
    rw [hlen] at hd
    obtain ⟨ax, a1, a2⟩ := hg.spatial rfl d hd
    obtain ⟨ax', b1, b2⟩ := h3.axes d ax a1
    refine ⟨ax', b1, ?_⟩
    have := b2.even _ _ a2
    have hn : shape.getD d 0 = ax.len := by
      rw [List.getD_eq_getElem?_getD, hg.axis_len a1]
      rfl
    unfold coarseFirst
    rw [add_sub_cancel_right]
    unfold coarseSize
    rw [hn]
    exact this

theorem even_length {ax : Axis ℝ} {e s : ℝ} (he : EvenAxis ax e s) (hs : 0 ≤ s) : physicalLength ax = ax.len * s := by
  unfold physicalLength
  rw [(even_iff.1 he).2.2]
  simp only [add_sub_cancel_left]
  exact abs_of_nonneg (by positivity)

theorem even_middle {ax : Axis ℝ} {e s : ℝ} (he : EvenAxis ax e s) : middle ax = e + ax.len * s / 2 := by
  unfold middle
  rw [(even_iff.1 he).2.2]
  ring

theorem OnGrid.lengths (hg : OnGrid f shape false x0 h) :
    f.axes.map physicalLength = (List.range shape.length).map fun d => shape.getD d 0 * h d := by
  have hl := ok_axes_length hg.sound.ok
  rw [hg.size] at hl
  apply List.ext_getElem?
  intro d
  rw [List.getElem?_map, List.getElem?_map]
  by_cases hd : d < shape.length
  · obtain ⟨ax, a1, a2⟩ := hg.spatial rfl d hd
    rw [a1, List.getElem?_range hd]
    simp only [Option.map_some, Option.some.injEq]
    rw [even_length a2 (hg.pos d hd).le, List.getD_eq_getElem?_getD, hg.axis_len a1]
    rfl
  · rw [List.getElem?_eq_none (by omega), List.getElem?_eq_none (by simpa using hd)]
    rfl

theorem eraseIdx_range {N d : ℕ} (hd : d < N) : (List.range N).eraseIdx d = (List.range N).filter (· ≠ d) := by
  have hmem : d ∈ List.range N := List.mem_range.2 hd
  have := List.Nodup.erase_eq_filter (List.nodup_range (n := N)) d
  have h2 : (List.range N).erase d = (List.range N).eraseIdx d := by
    rw [List.erase_eq_eraseIdx]
    have : List.idxOf? d (List.range N) = some d := by
      rw [List.idxOf?_eq_some_iff]
      refine ⟨by simpa using hd, by simp, ?_⟩
      intro j hj
      simp
      omega
    rw [this]
  rw [← h2, this]
  apply List.filter_congr
  intro a _
  by_cases h : a = d <;> simp [h]

theorem OnGrid.distance (hg : OnGrid f shape false x0 h) {axis : ℤ} {d : ℕ} (hd : pyIdx shape.length axis = some d)
    (h2 : 2 ≤ shape.length) :
    adaptiveDistance f.axes axis = .ok (meanWidth shape h d / 2) ∧ 0 < meanWidth shape h d := by
  have hdl := pyIdx_lt hd
  have hlen : ((List.range shape.length).filter (· ≠ d)).length = shape.length - 1 := by
    rw [← eraseIdx_range hdl, List.length_eraseIdx]
    simp [hdl]
  have hne : ((List.range shape.length).filter (· ≠ d)) ≠ [] := by
    intro h0
    rw [h0] at hlen
    simp at hlen
    omega
  constructor
  · unfold adaptiveDistance pyDel
    rw [hg.lengths]
    simp only [List.length_map, List.length_range, hd, bind, Except.bind]
    rw [List.eraseIdx_map, eraseIdx_range hdl, if_neg (by simpa using hne)]
    simp only [pure, Except.pure, meanList, meanWidth, List.length_map, hlen, Except.ok.injEq]
    norm_num
    ring
  · unfold meanWidth
    have h1 : (0 : ℝ) < (shape.length - 1 : ℕ) := by exact_mod_cast (by omega : 0 < shape.length - 1)
    apply div_pos _ h1
    apply List.sum_pos
    · intro x hx
      obtain ⟨e, he, rfl⟩ := List.mem_map.1 hx
      have he := List.mem_range.1 (List.mem_filter.1 he).1
      have e1 : shape[e]? = some shape[e] := List.getElem?_eq_getElem he
      have := hg.two _ (List.mem_of_getElem? e1)
      have hp := hg.pos e he
      rw [List.getD_eq_getElem?_getD, e1]
      simp only [Option.getD_some]
      have : (0 : ℝ) < shape[e] := by exact_mod_cast (by omega : 0 < shape[e])
      positivity
    · simpa using hne

/-- The cells for a width. -/
def cellsFor (l s : ℝ) : ℕ := ⌈l / s⌉.toNat

theorem cellsFor_means {l s : ℝ} (hl : 0 ≤ l) (hs : 0 < s) : MeansCells s (.length l) (cellsFor l s) := by
  have h0 : 0 ≤ ⌈l / s⌉ := Int.ceil_nonneg (div_nonneg hl hs.le)
  have hc : ((cellsFor l s : ℕ) : ℝ) = (⌈l / s⌉ : ℤ) := by
    unfold cellsFor
    have : ((⌈l / s⌉.toNat : ℤ) : ℝ) = (⌈l / s⌉ : ℤ) := by rw [Int.toNat_of_nonneg h0]
    exact_mod_cast this
  show (((cellsFor l s : ℕ) : ℝ) - 1) * s < l ∧ l ≤ ((cellsFor l s : ℕ) : ℝ) * s
  rw [hc]
  constructor
  · rw [← lt_div_iff₀ hs]
    have := Int.ceil_lt_add_one (l / s)
    linarith
  · rw [← div_le_iff₀ hs]
    exact Int.le_ceil _

end

end Postpic.Spec
