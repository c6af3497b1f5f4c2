import Verif.Lemmas.HistogramFloat
import Mathlib.Data.Rat.Floor

/-!
# Particle deposition with floating point numbers
-/

set_option autoImplicit false
set_option linter.unusedSectionVars false

namespace Postpic.Props

open Postpic Postpic.Histogram Postpic.Spec

section
variable {K : Type} [Field K] [LinearOrder K] [IsStrictOrderedRing K] [FloorRing K]

/-- The factor from positions to units of bins exists unless the computed length of the range is zero. -/
theorem invSpacingF_cases (rnd : K → Dbl K) (r : Dbl K × Dbl K) (bins : ℕ) :
    (Dbl.sub rnd r.2 r.1 = .fin 0 → invSpacingF rnd r bins = .error .zeroDivisionError) ∧
    (Dbl.sub rnd r.2 r.1 ≠ .fin 0 → ∃ dx, invSpacingF rnd r bins = .ok dx) := by
  unfold invSpacingF
  constructor
  · intro h
    rw [h]
    simp [Dbl.div, bind, Except.bind]
  · intro h
    cases hd : Dbl.sub rnd r.2 r.1 with
    | nan => exact ⟨_, rfl⟩
    | inf b => exact ⟨_, rfl⟩
    | fin y =>
      have hy : y ≠ 0 := fun h0 => h (by rw [hd, h0])
      simp only [Dbl.div, if_neg hy]
      exact ⟨_, rfl⟩

/-- C118: in one dimension all accesses are inside the arrays, for all doubles (also infinities and NaN) as positions, weights and limits
of the range, and however results are rounded. Without a range (computed length zero) a ZeroDivisionError is raised. -/
theorem histogram_float_safe (rnd : K → Dbl K) (spacing : Dbl K → Dbl K) (s : Shape) (data : List (Dbl K)) (range : Dbl K × Dbl K)
    (bins : ℕ) (hb : bins ≤ 2 ^ 31) (weights : Option (List (Dbl K))) (hw : ∀ w, weights = some w → data.length ≤ w.length) :
    let r := fixRangeF rnd spacing range
    (Dbl.sub rnd r.2 r.1 = .fin 0 → histogramF rnd spacing s data range bins weights = .error .zeroDivisionError) ∧
    (Dbl.sub rnd r.2 r.1 ≠ .fin 0 → ∃ h, histogramF rnd spacing s data range bins weights = .ok h ∧ h.length = bins) := by
  intro r
  constructor
  · intro h0
    unfold histogramF
    simp only [show fixRangeF rnd spacing range = r from rfl, (invSpacingF_cases rnd r bins).1 h0, bind, Except.bind]
  · intro h0
    obtain ⟨dx, hdx⟩ := (invSpacingF_cases rnd r bins).2 h0
    obtain ⟨m, hm⟩ := loopF_ok (rnd := rnd) (inb := inRange (bins + 2 * supp s)) (act := actF1 rnd s bins r.1 dx weights)
      (ps := data.zipIdx) (by
        intro p hp
        unfold actF1
        by_cases hg : guardF1 rnd s bins (Dbl.mul rnd (Dbl.sub rnd p.1 r.1) dx) = true
        · obtain ⟨w, hw'⟩ := weightAtF_ok (i := p.2) hw (by
            have := List.mem_zipIdx hp
            omega)
          refine ⟨(cellsF rnd s (Dbl.mul rnd (Dbl.sub rnd p.1 r.1) dx)).map fun c => (c.1, Dbl.mul rnd c.2 w), ?_, ?_⟩
          · simp only [if_pos hg, hw', bind, Except.bind]
            rfl
          · intro c hc
            obtain ⟨c', hc', rfl⟩ := List.mem_map.1 hc
            obtain ⟨g0, g1, g2⟩ := guardF1_ref hb hg
            exact cellsF_inRange (c := c') g0 g1 g2 hc'
        · exact ⟨[], by simp only [if_neg hg]; rfl, by simp⟩)
    refine ⟨(List.range bins).map (fun i : ℕ => m ((supp s : ℤ) + i)), ?_, ?_⟩
    · unfold histogramF
      simp only [show fixRangeF rnd spacing range = r from rfl, hdx, hm, bind, Except.bind]
      rfl
    · simp

/-- C118: in two dimensions the same for all positions whose computed place along the second axis is less than 2³¹-1 or NaN. Partial:
positions above, also infinite ones, see `histogram2d_float_safe_violated`. -/
theorem histogram2d_float_safe_partial (rnd : K → Dbl K) (hr : Rounding rnd) (spacing : Dbl K → Dbl K) (s : Shape)
    (datax datay : List (Dbl K)) (hl : datax.length = datay.length) (rangex rangey : Dbl K × Dbl K) (xb yb : ℕ) (hxb : xb ≤ 2 ^ 31)
    (hyb : yb ≤ 2 ^ 31) (weights : Option (List (Dbl K))) (hw : ∀ w, weights = some w → datax.length ≤ w.length)
    (dx dy : Dbl K) (hdx : invSpacingF rnd (fixRangeF rnd spacing rangex) xb = .ok dx)
    (hdy : invSpacingF rnd (fixRangeF rnd spacing rangey) yb = .ok dy)
    (hy : s = .ngp ∨ ∀ d ∈ datay, (Dbl.fin (2 ^ 31 - 1)).le (computed rnd (fixRangeF rnd spacing rangey).1 dy d) = false) :
    ∃ h, histogram2dF rnd spacing s datax datay rangex rangey xb yb weights = .ok h ∧ h.length = xb ∧ ∀ row ∈ h, row.length = yb := by
  obtain ⟨m, hm⟩ := loopF_ok (rnd := rnd) (inb := fun ij : ℤ × ℤ => inRange (xb + 2 * supp s) ij.1 && inRange (yb + 2 * supp s) ij.2)
    (act := actF2 rnd s xb yb (fixRangeF rnd spacing rangex).1 dx (fixRangeF rnd spacing rangey).1 dy weights)
    (ps := (datax.zip datay).zipIdx) (by
      intro p hp
      have hp' := List.mem_zipIdx hp
      unfold actF2
      generalize hx : Dbl.mul rnd (Dbl.sub rnd p.1.1 (fixRangeF rnd spacing rangex).1) dx = x
      generalize hyy : Dbl.mul rnd (Dbl.sub rnd p.1.2 (fixRangeF rnd spacing rangey).1) dy = y
      by_cases hg : guardF2 rnd s xb yb x y = true
      · obtain ⟨w, hw'⟩ := weightAtF_ok (i := p.2) hw (by
          have := hp'.2.1
          simp only [List.length_zip] at this
          omega)
        refine ⟨(cellsF rnd s x).flatMap fun cx => (cellsF rnd s y).map fun cy => ((cx.1, cy.1), Dbl.mul rnd (Dbl.mul rnd cx.2 cy.2) w), ?_, ?_⟩
        · simp only [if_pos hg, hw', bind, Except.bind]
          rfl
        · have hyd : p.1.2 ∈ datay := by
            have hmem : p.1 ∈ datax.zip datay := by rw [hp'.2.2]; exact List.getElem_mem _
            exact (List.of_mem_zip hmem).2
          have key : (0 ≤ cellRefF rnd s x ∧ cellRefF rnd s x ≤ xb ∧ (s = .ngp → cellRefF rnd s x < xb)) ∧
              (0 ≤ cellRefF rnd s y ∧ cellRefF rnd s y ≤ yb ∧ (s = .ngp → cellRefF rnd s y < yb)) := by
            have other : s ≠ .ngp → 0 ≤ cellRefF rnd s x ∧ (Dbl.fin 0).le y = true ∧ cellRefF rnd s x ≤ xb ∧ cellRefF rnd s y ≤ yb := by
              intro hs
              cases s
              · exact absurd rfl hs
              all_goals
                simp only [guardF2, Bool.and_eq_true, decide_eq_true_eq] at hg
                exact ⟨hg.1.1.1, hg.1.1.2, hg.1.2, hg.2⟩
            by_cases hs : s = .ngp
            · subst hs
              simp only [guardF2, Bool.and_eq_true] at hg
              exact ⟨guardF1_ref hxb (by simp [guardF1, hg.1.1.1, hg.1.2]), guardF1_ref hyb (by simp [guardF1, hg.1.1.2, hg.2])⟩
            · obtain ⟨g1, g2, g3, g4⟩ := other hs
              refine ⟨⟨g1, g3, fun h => absurd h hs⟩, le_ref hr g2 ?_, g4, fun h => absurd h hs⟩
              rw [← hyy]
              exact (hy.resolve_left hs) _ hyd
          intro c hc
          obtain ⟨cx, hcx, hc⟩ := List.mem_flatMap.1 hc
          obtain ⟨cy, hcy, rfl⟩ := List.mem_map.1 hc
          simp only [cellsF_inRange key.1.1 key.1.2.1 key.1.2.2 hcx, cellsF_inRange key.2.1 key.2.2.1 key.2.2.2 hcy, Bool.and_self]
      · exact ⟨[], by simp only [if_neg hg]; rfl, by simp⟩)
  refine ⟨(List.range xb).map (fun i : ℕ => (List.range yb).map fun j : ℕ => m ((supp s : ℤ) + i, (supp s : ℤ) + j)), ?_, ?_⟩
  · unfold histogram2dF
    simp only [ne_eq, hl, not_true_eq_false, if_false, hdx, hdy, hm, bind, Except.bind]
    rfl
  · refine ⟨by simp, ?_⟩
    intro row hrow
    simp only [List.mem_map] at hrow
    obtain ⟨i, _, rfl⟩ := hrow
    simp

/-- C118: in three dimensions, partial in the same sense, for the second axis, and the third one for the tophat shape. -/
theorem histogram3d_float_safe_partial (rnd : K → Dbl K) (hr : Rounding rnd) (spacing : Dbl K → Dbl K) (s : Shape)
    (datax datay dataz : List (Dbl K)) (hl : datax.length = datay.length) (hl' : datax.length = dataz.length)
    (rangex rangey rangez : Dbl K × Dbl K) (xb yb zb : ℕ) (hxb : xb ≤ 2 ^ 31) (hyb : yb ≤ 2 ^ 31) (hzb : zb ≤ 2 ^ 31)
    (weights : Option (List (Dbl K))) (hw : ∀ w, weights = some w → datax.length ≤ w.length)
    (dx dy dz : Dbl K) (hdx : invSpacingF rnd (fixRangeF rnd spacing rangex) xb = .ok dx)
    (hdy : invSpacingF rnd (fixRangeF rnd spacing rangey) yb = .ok dy)
    (hdz : invSpacingF rnd (fixRangeF rnd spacing rangez) zb = .ok dz)
    (hy : s = .ngp ∨ ∀ d ∈ datay, (Dbl.fin (2 ^ 31 - 1)).le (computed rnd (fixRangeF rnd spacing rangey).1 dy d) = false)
    (hz : s ≠ .tophat ∨ ∀ d ∈ dataz, (Dbl.fin (2 ^ 31 - 1)).le (computed rnd (fixRangeF rnd spacing rangez).1 dz d) = false) :
    ∃ h, histogram3dF rnd spacing s datax datay dataz rangex rangey rangez xb yb zb weights = .ok h ∧ h.length = xb ∧
      ∀ m ∈ h, m.length = yb ∧ ∀ row ∈ m, row.length = zb := by
  obtain ⟨m, hm⟩ := loopF_ok (rnd := rnd) (inb := fun ij : ℤ × ℤ × ℤ => inRange (xb + 2 * supp s) ij.1 &&
      (inRange (yb + 2 * supp s) ij.2.1 && inRange (zb + 2 * supp s) ij.2.2))
    (act := actF3 rnd s xb yb zb (fixRangeF rnd spacing rangex).1 dx (fixRangeF rnd spacing rangey).1 dy
      (fixRangeF rnd spacing rangez).1 dz weights) (ps := (datax.zip (datay.zip dataz)).zipIdx) (by
      intro p hp
      have hp' := List.mem_zipIdx hp
      unfold actF3
      generalize hx : Dbl.mul rnd (Dbl.sub rnd p.1.1 (fixRangeF rnd spacing rangex).1) dx = x
      generalize hyy : Dbl.mul rnd (Dbl.sub rnd p.1.2.1 (fixRangeF rnd spacing rangey).1) dy = y
      generalize hzz : Dbl.mul rnd (Dbl.sub rnd p.1.2.2 (fixRangeF rnd spacing rangez).1) dz = z
      by_cases hg : guardF3 rnd s xb yb zb x y z = true
      · obtain ⟨w, hw'⟩ := weightAtF_ok (i := p.2) hw (by
          have := hp'.2.1
          simp only [List.length_zip] at this
          omega)
        refine ⟨(cellsF rnd s x).flatMap fun cx => (cellsF rnd s y).flatMap fun cy => (cellsF rnd s z).map fun cz =>
          ((cx.1, cy.1, cz.1), Dbl.mul rnd (Dbl.mul rnd (Dbl.mul rnd cx.2 cy.2) cz.2) w), ?_, ?_⟩
        · simp only [if_pos hg, hw', bind, Except.bind]
          rfl
        · have hmem : p.1 ∈ datax.zip (datay.zip dataz) := by rw [hp'.2.2]; exact List.getElem_mem _
          have hmem2 := List.of_mem_zip (List.of_mem_zip hmem).2
          have key : (0 ≤ cellRefF rnd s x ∧ cellRefF rnd s x ≤ xb ∧ (s = .ngp → cellRefF rnd s x < xb)) ∧
              (0 ≤ cellRefF rnd s y ∧ cellRefF rnd s y ≤ yb ∧ (s = .ngp → cellRefF rnd s y < yb)) ∧
              (0 ≤ cellRefF rnd s z ∧ cellRefF rnd s z ≤ zb ∧ (s = .ngp → cellRefF rnd s z < zb)) := by
            have nongp : s ≠ .ngp → (Dbl.fin 0).le y = true → 0 ≤ cellRefF rnd s y := by
              intro hs g
              refine le_ref hr g ?_
              rw [← hyy]
              exact (hy.resolve_left hs) _ hmem2.1
            cases s
            · simp only [guardF3, Bool.and_eq_true] at hg
              obtain ⟨⟨⟨⟨⟨g1, g2⟩, g3⟩, g4⟩, g5⟩, g6⟩ := hg
              exact ⟨guardF1_ref hxb (by simp [guardF1, g1, g4]), guardF1_ref hyb (by simp [guardF1, g2, g5]),
                guardF1_ref hzb (by simp [guardF1, g3, g6])⟩
            · simp only [guardF3, Bool.and_eq_true, decide_eq_true_eq] at hg
              obtain ⟨⟨⟨⟨⟨g1, g2⟩, g3⟩, g4⟩, g5⟩, g6⟩ := hg
              refine ⟨⟨g1, g3, by simp⟩, ⟨nongp (by simp) g2, g4, by simp⟩, le_ref hr g5 ?_, g6, by simp⟩
              rw [← hzz]
              exact (hz.resolve_left (by simp)) _ hmem2.2
            all_goals
              simp only [guardF3, Bool.and_eq_true, decide_eq_true_eq] at hg
              obtain ⟨⟨⟨⟨⟨g1, g2⟩, g3⟩, g4⟩, g5⟩, g6⟩ := hg
              exact ⟨⟨g1, g4, by simp⟩, ⟨nongp (by simp) g2, g5, by simp⟩, g3, g6, by simp⟩
          intro c hc
          obtain ⟨cx, hcx, hc⟩ := List.mem_flatMap.1 hc
          obtain ⟨cy, hcy, hc⟩ := List.mem_flatMap.1 hc
          obtain ⟨cz, hcz, rfl⟩ := List.mem_map.1 hc
          simp only [cellsF_inRange key.1.1 key.1.2.1 key.1.2.2 hcx, cellsF_inRange key.2.1.1 key.2.1.2.1 key.2.1.2.2 hcy,
            cellsF_inRange key.2.2.1 key.2.2.2.1 key.2.2.2.2 hcz, Bool.and_self]
      · exact ⟨[], by simp only [if_neg hg]; rfl, by simp⟩)
  refine ⟨(List.range xb).map (fun i : ℕ => (List.range yb).map fun j : ℕ => (List.range zb).map fun k : ℕ =>
    m ((supp s : ℤ) + i, (supp s : ℤ) + j, (supp s : ℤ) + k)), ?_, ?_⟩
  · unfold histogram3dF
    simp only [ne_eq, ← hl, ← hl', not_true_eq_false, if_false, hdx, hdy, hdz, hm, bind, Except.bind]
    rfl
  · refine ⟨by simp, ?_⟩
    intro q hq
    simp only [List.mem_map] at hq
    obtain ⟨i, _, rfl⟩ := hq
    refine ⟨by simp, ?_⟩
    intro row hrow
    simp only [List.mem_map] at hrow
    obtain ⟨j, _, rfl⟩ := hrow
    simp

/-! ### Positions which are not finite -/

/-- A particle with a position and a weight. -/
theorem weightAtF_particles {β : Type} (ps : List β) (w : β → Dbl K) (i : ℕ) (p : β) (h : ps[i]? = some p) :
    weightAtF (some (ps.map w)) i = .ok (w p) := by
  simp [weightAtF, List.getElem?_map, h]

/-- C118: particles whose position is NaN or infinite do not count. -/
theorem histogram_not_finite (rnd : K → Dbl K) (spacing : Dbl K → Dbl K) (s : Shape) (ps : List (Dbl K × Dbl K)) (range : Dbl K × Dbl K)
    (bins : ℕ) (q : Dbl K × Dbl K → Bool) (hq : ∀ p ∈ ps, q p = false → finite p.1 = false) :
    histogramF rnd spacing s ((ps.filter q).map Prod.fst) range bins (some ((ps.filter q).map Prod.snd)) =
      histogramF rnd spacing s (ps.map Prod.fst) range bins (some (ps.map Prod.snd)) := by
  unfold histogramF
  cases hdx : invSpacingF rnd (fixRangeF rnd spacing range) bins with
  | error e => simp only [hdx, bind, Except.bind]
  | ok dx =>
    let act' : Dbl K × Dbl K → Res (List (ℤ × Dbl K)) := fun p =>
      if guardF1 rnd s bins (Dbl.mul rnd (Dbl.sub rnd p.1 (fixRangeF rnd spacing range).1) dx) then
        .ok ((cellsF rnd s (Dbl.mul rnd (Dbl.sub rnd p.1 (fixRangeF rnd spacing range).1) dx)).map fun c => (c.1, Dbl.mul rnd c.2 p.2))
      else .ok []
    have h1 : ∀ l : List (Dbl K × Dbl K), loopF rnd (inRange (bins + 2 * supp s)) (actF1 rnd s bins (fixRangeF rnd spacing range).1 dx
        (some (l.map Prod.snd))) (l.map Prod.fst).zipIdx = loopF rnd (inRange (bins + 2 * supp s)) act' l := by
      intro l
      apply loopF_particles
      intro i p hp
      unfold actF1
      rw [weightAtF_particles l Prod.snd i p hp]
      rfl
    have h2 := loopF_filter (rnd := rnd) (inRange (bins + 2 * supp s)) act' ps q (by
      intro p hp hqp
      have h := computed_not_finite rnd (fixRangeF rnd spacing range).1 dx _ (hq p hp hqp)
      show (if guardF1 rnd s bins (computed rnd (fixRangeF rnd spacing range).1 dx p.1) = true then _ else _) = _
      rw [if_neg]
      cases s <;> simp [guardF1, cellRefF_not_finite _ h, between_not_finite h])
    simp only [hdx, bind, Except.bind]
    rw [h1, h1, h2]

/-- C118: the same in two dimensions. Partial: a particle which is at infinity along the second axis does not count with order 0 only, see
`histogram2d_float_safe_violated`. -/
theorem histogram2d_not_finite_partial (rnd : K → Dbl K) (spacing : Dbl K → Dbl K) (s : Shape) (ps : List ((Dbl K × Dbl K) × Dbl K))
    (rangex rangey : Dbl K × Dbl K) (xb yb : ℕ) (q : (Dbl K × Dbl K) × Dbl K → Bool)
    (hq : ∀ p ∈ ps, q p = false → finite p.1.1 = false ∨ p.1.2 = .nan ∨ (s = .ngp ∧ finite p.1.2 = false)) :
    histogram2dF rnd spacing s ((ps.filter q).map fun p => p.1.1) ((ps.filter q).map fun p => p.1.2) rangex rangey xb yb
        (some ((ps.filter q).map Prod.snd)) =
      histogram2dF rnd spacing s (ps.map fun p => p.1.1) (ps.map fun p => p.1.2) rangex rangey xb yb (some (ps.map Prod.snd)) := by
  unfold histogram2dF
  simp only [List.length_map, ne_eq, not_true_eq_false, if_false]
  have hz : ∀ l : List ((Dbl K × Dbl K) × Dbl K), (l.map fun p => p.1.1).zip (l.map fun p => p.1.2) = l.map Prod.fst := by
    intro l
    induction l with
    | nil => rfl
    | cons p l ih => simp only [List.map_cons, List.zip_cons_cons, ih]
  rw [hz, hz]
  cases hdx : invSpacingF rnd (fixRangeF rnd spacing rangex) xb with
  | error e => simp only [hdx, bind, Except.bind]
  | ok dx =>
    cases hdy : invSpacingF rnd (fixRangeF rnd spacing rangey) yb with
    | error e => simp only [hdx, hdy, bind, Except.bind]
    | ok dy =>
      let act' : (Dbl K × Dbl K) × Dbl K → Res (List ((ℤ × ℤ) × Dbl K)) := fun p =>
        let x := Dbl.mul rnd (Dbl.sub rnd p.1.1 (fixRangeF rnd spacing rangex).1) dx
        let y := Dbl.mul rnd (Dbl.sub rnd p.1.2 (fixRangeF rnd spacing rangey).1) dy
        if guardF2 rnd s xb yb x y then
          .ok ((cellsF rnd s x).flatMap fun cx => (cellsF rnd s y).map fun cy =>
            ((cx.1, cy.1), Dbl.mul rnd (Dbl.mul rnd cx.2 cy.2) p.2))
        else .ok []
      have h1 : ∀ l : List ((Dbl K × Dbl K) × Dbl K), loopF rnd (fun ij : ℤ × ℤ => inRange (xb + 2 * supp s) ij.1 &&
          inRange (yb + 2 * supp s) ij.2) (actF2 rnd s xb yb (fixRangeF rnd spacing rangex).1 dx (fixRangeF rnd spacing rangey).1 dy
          (some (l.map Prod.snd))) (l.map Prod.fst).zipIdx =
          loopF rnd (fun ij : ℤ × ℤ => inRange (xb + 2 * supp s) ij.1 && inRange (yb + 2 * supp s) ij.2) act' l := by
        intro l
        apply loopF_particles
        intro i p hp
        unfold actF2
        rw [weightAtF_particles l Prod.snd i p hp]
        rfl
      have h2 := loopF_filter (rnd := rnd) (fun ij : ℤ × ℤ => inRange (xb + 2 * supp s) ij.1 && inRange (yb + 2 * supp s) ij.2) act' ps q (by
        intro p hp hqp
        show (if guardF2 rnd s xb yb (computed rnd (fixRangeF rnd spacing rangex).1 dx p.1.1)
          (computed rnd (fixRangeF rnd spacing rangey).1 dy p.1.2) = true then _ else _) = _
        rw [if_neg]
        rcases hq p hp hqp with h | h | ⟨hs, h⟩
        · have h' := computed_not_finite rnd (fixRangeF rnd spacing rangex).1 dx _ h
          cases s <;> simp [guardF2, cellRefF_not_finite _ h']
          intro a _ b
          have := between_not_finite h' 0 (xb : K)
          simp [a, b] at this
        · rw [show computed rnd (fixRangeF rnd spacing rangey).1 dy p.1.2 = .nan by rw [computed, h, sub_nan, mul_nan]]
          cases s <;> simp [guardF2, Dbl.lt, Dbl.le]
        · have h' := computed_not_finite rnd (fixRangeF rnd spacing rangey).1 dy _ h
          subst hs
          simp only [guardF2, Bool.and_eq_true, not_and]
          rintro ⟨⟨_, a⟩, _⟩ b
          have := between_not_finite h' 0 (yb : K)
          simp [a, b] at this)
      simp only [hdx, hdy, bind, Except.bind]
      rw [h1, h1, h2]

/-- C118: the same in three dimensions, partial in the same sense (the third axis only for the tophat shape). -/
theorem histogram3d_not_finite_partial (rnd : K → Dbl K) (spacing : Dbl K → Dbl K) (s : Shape) (ps : List ((Dbl K × Dbl K × Dbl K) × Dbl K))
    (rangex rangey rangez : Dbl K × Dbl K) (xb yb zb : ℕ) (q : (Dbl K × Dbl K × Dbl K) × Dbl K → Bool)
    (hq : ∀ p ∈ ps, q p = false → finite p.1.1 = false ∨ p.1.2.1 = .nan ∨ p.1.2.2 = .nan ∨ (s = .ngp ∧ finite p.1.2.1 = false) ∨
      (s ≠ .tophat ∧ finite p.1.2.2 = false)) :
    histogram3dF rnd spacing s ((ps.filter q).map fun p => p.1.1) ((ps.filter q).map fun p => p.1.2.1)
        ((ps.filter q).map fun p => p.1.2.2) rangex rangey rangez xb yb zb (some ((ps.filter q).map Prod.snd)) =
      histogram3dF rnd spacing s (ps.map fun p => p.1.1) (ps.map fun p => p.1.2.1) (ps.map fun p => p.1.2.2) rangex rangey rangez
        xb yb zb (some (ps.map Prod.snd)) := by
  unfold histogram3dF
  simp only [List.length_map, ne_eq, not_true_eq_false, if_false]
  have hz : ∀ l : List ((Dbl K × Dbl K × Dbl K) × Dbl K), (l.map fun p => p.1.1).zip ((l.map fun p => p.1.2.1).zip
      (l.map fun p => p.1.2.2)) = l.map Prod.fst := by
    intro l
    induction l with
    | nil => rfl
    | cons p l ih => simp only [List.map_cons, List.zip_cons_cons, ih]
  rw [hz, hz]
  cases hdx : invSpacingF rnd (fixRangeF rnd spacing rangex) xb with
  | error e => simp only [hdx, bind, Except.bind]
  | ok dx =>
    cases hdy : invSpacingF rnd (fixRangeF rnd spacing rangey) yb with
    | error e => simp only [hdx, hdy, bind, Except.bind]
    | ok dy =>
      cases hdz : invSpacingF rnd (fixRangeF rnd spacing rangez) zb with
      | error e => simp only [hdx, hdy, hdz, bind, Except.bind]
      | ok dz =>
        let act' : (Dbl K × Dbl K × Dbl K) × Dbl K → Res (List ((ℤ × ℤ × ℤ) × Dbl K)) := fun p =>
          let x := Dbl.mul rnd (Dbl.sub rnd p.1.1 (fixRangeF rnd spacing rangex).1) dx
          let y := Dbl.mul rnd (Dbl.sub rnd p.1.2.1 (fixRangeF rnd spacing rangey).1) dy
          let z := Dbl.mul rnd (Dbl.sub rnd p.1.2.2 (fixRangeF rnd spacing rangez).1) dz
          if guardF3 rnd s xb yb zb x y z then
            .ok ((cellsF rnd s x).flatMap fun cx => (cellsF rnd s y).flatMap fun cy => (cellsF rnd s z).map fun cz =>
              ((cx.1, cy.1, cz.1), Dbl.mul rnd (Dbl.mul rnd (Dbl.mul rnd cx.2 cy.2) cz.2) p.2))
          else .ok []
        have h1 : ∀ l : List ((Dbl K × Dbl K × Dbl K) × Dbl K), loopF rnd (fun ij : ℤ × ℤ × ℤ => inRange (xb + 2 * supp s) ij.1 &&
            (inRange (yb + 2 * supp s) ij.2.1 && inRange (zb + 2 * supp s) ij.2.2))
            (actF3 rnd s xb yb zb (fixRangeF rnd spacing rangex).1 dx (fixRangeF rnd spacing rangey).1 dy
            (fixRangeF rnd spacing rangez).1 dz (some (l.map Prod.snd))) (l.map Prod.fst).zipIdx =
            loopF rnd (fun ij : ℤ × ℤ × ℤ => inRange (xb + 2 * supp s) ij.1 &&
            (inRange (yb + 2 * supp s) ij.2.1 && inRange (zb + 2 * supp s) ij.2.2)) act' l := by
          intro l
          apply loopF_particles
          intro i p hp
          unfold actF3
          rw [weightAtF_particles l Prod.snd i p hp]
          rfl
        have h2 := loopF_filter (rnd := rnd) (fun ij : ℤ × ℤ × ℤ => inRange (xb + 2 * supp s) ij.1 &&
            (inRange (yb + 2 * supp s) ij.2.1 && inRange (zb + 2 * supp s) ij.2.2)) act' ps q (by
          intro p hp hqp
          show (if guardF3 rnd s xb yb zb (computed rnd (fixRangeF rnd spacing rangex).1 dx p.1.1)
            (computed rnd (fixRangeF rnd spacing rangey).1 dy p.1.2.1)
            (computed rnd (fixRangeF rnd spacing rangez).1 dz p.1.2.2) = true then _ else _) = _
          rw [if_neg]
          rcases hq p hp hqp with h | h | h | ⟨hs, h⟩ | ⟨hs, h⟩
          · have h' := computed_not_finite rnd (fixRangeF rnd spacing rangex).1 dx _ h
            cases s <;> simp [guardF3, cellRefF_not_finite _ h']
            intro a _ _ b
            have := between_not_finite h' 0 (xb : K)
            simp [a, b] at this
          · rw [show computed rnd (fixRangeF rnd spacing rangey).1 dy p.1.2.1 = .nan by rw [computed, h, sub_nan, mul_nan]]
            cases s <;> simp [guardF3, Dbl.lt, Dbl.le]
          · rw [show computed rnd (fixRangeF rnd spacing rangez).1 dz p.1.2.2 = .nan by rw [computed, h, sub_nan, mul_nan]]
            cases s <;> simp [guardF3, Dbl.lt, Dbl.le, cellRefF_nan]
          · have h' := computed_not_finite rnd (fixRangeF rnd spacing rangey).1 dy _ h
            subst hs
            simp only [guardF3, Bool.and_eq_true, not_and]
            rintro ⟨⟨⟨⟨_, a⟩, _⟩, _⟩, b⟩
            have := between_not_finite h' 0 (yb : K)
            simp [a, b] at this
          · have h' := computed_not_finite rnd (fixRangeF rnd spacing rangez).1 dz _ h
            cases s
            · simp only [guardF3, Bool.and_eq_true, not_and]
              rintro ⟨⟨⟨_, a⟩, _⟩, _⟩ b
              have := between_not_finite h' 0 (zb : K)
              simp [a, b] at this
            · exact absurd rfl hs
            all_goals simp [guardF3, cellRefF_not_finite _ h'])
        simp only [hdx, hdy, hdz, bind, Except.bind]
        rw [h1, h1, h2]

end

/-! ### Exact numbers -/

section
variable {K : Type} [Field K] [LinearOrder K] [IsStrictOrderedRing K] [FloorRing K]

theorem coordinate_fin (d xmin dx : K) :
    Dbl.mul Dbl.fin (Dbl.sub Dbl.fin (.fin d) (.fin xmin)) (.fin dx) = .fin ((d - xmin) * dx) := by
  simp only [Dbl.mul, Dbl.sub, Dbl.add, Dbl.neg, sub_eq_add_neg]

theorem actF1_fin (s : Shape) (bins : ℕ) (xmin dx : K) (weights : Option (List K)) (p : K × ℕ) :
    actF1 Dbl.fin s bins (.fin xmin) (.fin dx) (weights.map fun l => l.map Dbl.fin) (.fin p.1, p.2) =
      (act1 s bins xmin dx weights p).map fun l => l.map fun c => (c.1, Dbl.fin c.2) := by
  unfold actF1 act1
  simp only [coordinate_fin, weightAtF_fin, cellsF_fin]
  have hg : guardF1 Dbl.fin s bins (.fin ((p.1 - xmin) * dx)) = guard1 s bins ((p.1 - xmin) * dx) := by
    cases s <;> simp only [guardF1, guard1, cellRefF_fin, Dbl.lt]
  rw [hg]
  by_cases h : guard1 s bins ((p.1 - xmin) * dx) = true
  · simp only [if_pos h]
    cases weightAt weights p.2 with
    | error e => rfl
    | ok w =>
      simp only [Except.map, bind, Except.bind, pure, Except.pure, List.map_map]
      rfl
  · simp only [if_neg h]
    rfl

theorem actF2_fin (s : Shape) (xb yb : ℕ) (xmin dx ymin dy : K) (weights : Option (List K)) (p : (K × K) × ℕ) :
    actF2 Dbl.fin s xb yb (.fin xmin) (.fin dx) (.fin ymin) (.fin dy) (weights.map fun l => l.map Dbl.fin)
        ((.fin p.1.1, .fin p.1.2), p.2) =
      (act2 s xb yb xmin dx ymin dy weights p).map fun l => l.map fun c => (c.1, Dbl.fin c.2) := by
  unfold actF2 act2
  simp only [coordinate_fin, weightAtF_fin, cellsF_fin]
  have hg : ∀ x y : K, guardF2 Dbl.fin s xb yb (.fin x) (.fin y) = guard2 s xb yb x y := by
    intro x y
    cases s <;> simp only [guardF2, guard2, cellRefF_fin, Dbl.lt, Dbl.le]
  rw [hg]
  by_cases h : guard2 s xb yb ((p.1.1 - xmin) * dx) ((p.1.2 - ymin) * dy) = true
  · simp only [if_pos h]
    cases weightAt weights p.2 with
    | error e => rfl
    | ok w =>
      simp only [Except.map, bind, Except.bind, pure, Except.pure, List.map_map, List.flatMap_map, List.map_flatMap]
      rfl
  · simp only [if_neg h]
    rfl

theorem actF3_fin (s : Shape) (xb yb zb : ℕ) (xmin dx ymin dy zmin dz : K) (weights : Option (List K)) (p : (K × K × K) × ℕ) :
    actF3 Dbl.fin s xb yb zb (.fin xmin) (.fin dx) (.fin ymin) (.fin dy) (.fin zmin) (.fin dz) (weights.map fun l => l.map Dbl.fin)
        ((.fin p.1.1, .fin p.1.2.1, .fin p.1.2.2), p.2) =
      (act3 s xb yb zb xmin dx ymin dy zmin dz weights p).map fun l => l.map fun c => (c.1, Dbl.fin c.2) := by
  unfold actF3 act3
  simp only [coordinate_fin, weightAtF_fin, cellsF_fin]
  have hg : ∀ x y z : K, guardF3 Dbl.fin s xb yb zb (.fin x) (.fin y) (.fin z) = guard3 s xb yb zb x y z := by
    intro x y z
    cases s <;> simp only [guardF3, guard3, cellRefF_fin, Dbl.lt, Dbl.le]
  rw [hg]
  by_cases h : guard3 s xb yb zb ((p.1.1 - xmin) * dx) ((p.1.2.1 - ymin) * dy) ((p.1.2.2 - zmin) * dz) = true
  · simp only [if_pos h]
    cases weightAt weights p.2 with
    | error e => rfl
    | ok w =>
      simp only [Except.map, bind, Except.bind, pure, Except.pure, List.map_map, List.flatMap_map, List.map_flatMap]
      rfl
  · simp only [if_neg h]
    rfl

/-- C118: if nothing has to be rounded the result is the exact one, whose properties are those of C01 to C05. -/
theorem histogram_exact (spacing : K → K) (spacing' : Dbl K → Dbl K) (hs : ∀ x, spacing' (.fin x) = .fin (spacing x)) (s : Shape)
    (data : List K) (range : K × K) (bins : ℕ) (weights : Option (List K)) :
    histogramF Dbl.fin spacing' s (data.map Dbl.fin) (.fin range.1, .fin range.2) bins (weights.map fun l => l.map Dbl.fin) =
      (histogram spacing s data range bins weights).map fun h => h.1.map Dbl.fin := by
  unfold histogramF histogram
  simp only [fixRangeF_fin spacing spacing' hs range, invSpacingF_fin]
  cases hdx : invSpacing (fixRange spacing range) bins with
  | error e => rfl
  | ok dx =>
    have h := loopF_fin (inRange (bins + 2 * supp s)) (act1 s bins (fixRange spacing range).1 dx weights)
      (actF1 Dbl.fin s bins (.fin (fixRange spacing range).1) (.fin dx) (weights.map fun l => l.map Dbl.fin))
      (fun p => (Dbl.fin p.1, p.2)) (fun p => actF1_fin s bins _ dx weights p) data.zipIdx
    have hz : (data.map Dbl.fin).zipIdx = data.zipIdx.map fun p => (Dbl.fin p.1, p.2) := by
      rw [List.zipIdx_map]
      rfl
    rw [hz]
    simp only [Except.map, bind, Except.bind]
    rw [h]
    cases loop (inRange (bins + 2 * supp s)) (act1 s bins (fixRange spacing range).1 dx weights) data.zipIdx with
    | error e => rfl
    | ok m => simp [Except.map, pure, Except.pure]

/-- C118: the same in two dimensions. -/
theorem histogram2d_exact (spacing : K → K) (spacing' : Dbl K → Dbl K) (hs : ∀ x, spacing' (.fin x) = .fin (spacing x)) (s : Shape)
    (datax datay : List K) (rx ry : K × K) (xb yb : ℕ) (weights : Option (List K)) :
    histogram2dF Dbl.fin spacing' s (datax.map Dbl.fin) (datay.map Dbl.fin) (.fin rx.1, .fin rx.2) (.fin ry.1, .fin ry.2) xb yb
        (weights.map fun l => l.map Dbl.fin) =
      (histogram2d spacing s datax datay rx ry xb yb weights).map fun h => h.1.map fun row => row.map Dbl.fin := by
  unfold histogram2dF histogram2d
  simp only [List.length_map]
  by_cases hl : datax.length ≠ datay.length
  · rw [if_pos hl, if_pos hl]
    rfl
  rw [if_neg hl, if_neg hl]
  simp only [fixRangeF_fin spacing spacing' hs, invSpacingF_fin]
  cases hdx : invSpacing (fixRange spacing rx) xb with
  | error e => rfl
  | ok dx =>
    cases hdy : invSpacing (fixRange spacing ry) yb with
    | error e => rfl
    | ok dy =>
      have h := loopF_fin (fun ij : ℤ × ℤ => inRange (xb + 2 * supp s) ij.1 && inRange (yb + 2 * supp s) ij.2)
        (act2 s xb yb (fixRange spacing rx).1 dx (fixRange spacing ry).1 dy weights)
        (actF2 Dbl.fin s xb yb (.fin (fixRange spacing rx).1) (.fin dx) (.fin (fixRange spacing ry).1) (.fin dy)
          (weights.map fun l => l.map Dbl.fin))
        (fun p => ((Dbl.fin p.1.1, Dbl.fin p.1.2), p.2)) (fun p => actF2_fin s xb yb _ dx _ dy weights p) (datax.zip datay).zipIdx
      have hz : ((datax.map Dbl.fin).zip (datay.map Dbl.fin)).zipIdx =
          (datax.zip datay).zipIdx.map fun p => ((Dbl.fin p.1.1, Dbl.fin p.1.2), p.2) := by
        rw [List.zip_map, List.zipIdx_map]
        rfl
      rw [hz]
      simp only [Except.map, bind, Except.bind, pure, Except.pure]
      rw [h]
      cases loop (fun ij : ℤ × ℤ => inRange (xb + 2 * supp s) ij.1 && inRange (yb + 2 * supp s) ij.2)
        (act2 s xb yb (fixRange spacing rx).1 dx (fixRange spacing ry).1 dy weights) (datax.zip datay).zipIdx with
      | error e => rfl
      | ok m => simp [Except.map]

/-- C118: the same in three dimensions. -/
theorem histogram3d_exact (spacing : K → K) (spacing' : Dbl K → Dbl K) (hs : ∀ x, spacing' (.fin x) = .fin (spacing x)) (s : Shape)
    (datax datay dataz : List K) (rx ry rz : K × K) (xb yb zb : ℕ) (weights : Option (List K)) :
    histogram3dF Dbl.fin spacing' s (datax.map Dbl.fin) (datay.map Dbl.fin) (dataz.map Dbl.fin) (.fin rx.1, .fin rx.2)
        (.fin ry.1, .fin ry.2) (.fin rz.1, .fin rz.2) xb yb zb (weights.map fun l => l.map Dbl.fin) =
      (histogram3d spacing s datax datay dataz rx ry rz xb yb zb weights).map
        fun h => h.1.map fun m => m.map fun row => row.map Dbl.fin := by
  unfold histogram3dF histogram3d
  simp only [List.length_map]
  by_cases hl : datax.length ≠ datay.length
  · rw [if_pos hl, if_pos hl]
    rfl
  rw [if_neg hl, if_neg hl]
  by_cases hl' : datax.length ≠ dataz.length
  · rw [if_pos hl', if_pos hl']
    rfl
  rw [if_neg hl', if_neg hl']
  simp only [fixRangeF_fin spacing spacing' hs, invSpacingF_fin]
  cases hdx : invSpacing (fixRange spacing rx) xb with
  | error e => rfl
  | ok dx =>
    cases hdy : invSpacing (fixRange spacing ry) yb with
    | error e => rfl
    | ok dy =>
      cases hdz : invSpacing (fixRange spacing rz) zb with
      | error e => rfl
      | ok dz =>
        have h := loopF_fin (fun ij : ℤ × ℤ × ℤ => inRange (xb + 2 * supp s) ij.1 &&
            (inRange (yb + 2 * supp s) ij.2.1 && inRange (zb + 2 * supp s) ij.2.2))
          (act3 s xb yb zb (fixRange spacing rx).1 dx (fixRange spacing ry).1 dy (fixRange spacing rz).1 dz weights)
          (actF3 Dbl.fin s xb yb zb (.fin (fixRange spacing rx).1) (.fin dx) (.fin (fixRange spacing ry).1) (.fin dy)
            (.fin (fixRange spacing rz).1) (.fin dz) (weights.map fun l => l.map Dbl.fin))
          (fun p => ((Dbl.fin p.1.1, Dbl.fin p.1.2.1, Dbl.fin p.1.2.2), p.2))
          (fun p => actF3_fin s xb yb zb _ dx _ dy _ dz weights p) (datax.zip (datay.zip dataz)).zipIdx
        have hz : ((datax.map Dbl.fin).zip ((datay.map Dbl.fin).zip (dataz.map Dbl.fin))).zipIdx =
            (datax.zip (datay.zip dataz)).zipIdx.map fun p => ((Dbl.fin p.1.1, Dbl.fin p.1.2.1, Dbl.fin p.1.2.2), p.2) := by
          rw [List.zip_map, List.zip_map, List.zipIdx_map]
          rfl
        rw [hz]
        simp only [Except.map, bind, Except.bind, pure, Except.pure]
        rw [h]
        cases loop (fun ij : ℤ × ℤ × ℤ => inRange (xb + 2 * supp s) ij.1 &&
            (inRange (yb + 2 * supp s) ij.2.1 && inRange (zb + 2 * supp s) ij.2.2))
          (act3 s xb yb zb (fixRange spacing rx).1 dx (fixRange spacing ry).1 dy (fixRange spacing rz).1 dz weights)
          (datax.zip (datay.zip dataz)).zipIdx with
        | error e => rfl
        | ok m => simp [Except.map]

end

/-! ### Counting -/

section
variable {K : Type} [Field K] [LinearOrder K] [IsStrictOrderedRing K] [FloorRing K]

/-- C118: the numbers of a histogram of order 0 without weights are exact: a bin contains the number of particles whose computed position is
inside, for up to 2³¹ particles. -/
theorem histogram_counts (rnd : K → Dbl K) (hr : Rounding rnd) (spacing : Dbl K → Dbl K) (data : List (Dbl K)) (range : Dbl K × Dbl K)
    (bins : ℕ) (hb : bins ≤ 2 ^ 31) (hn : data.length ≤ 2 ^ 31) (dx : Dbl K)
    (hdx : invSpacingF rnd (fixRangeF rnd spacing range) bins = .ok dx) :
    histogramF rnd spacing .ngp data range bins none = .ok ((List.range bins).map fun i =>
      .fin ((data.countP fun d => inBin i (computed rnd (fixRangeF rnd spacing range).1 dx d) : ℕ) : K)) := by
  obtain ⟨m, h1, h2⟩ := loopF_count hr (inRange (bins + 2 * supp .ngp)) (actF1 rnd .ngp bins (fixRangeF rnd spacing range).1 dx none)
    (fun p => if guardF1 rnd .ngp bins (computed rnd (fixRangeF rnd spacing range).1 dx p.1) = true then
      some (computed rnd (fixRangeF rnd spacing range).1 dx p.1).cast else none) data.zipIdx (by
      intro p _
      unfold actF1
      simp only [show Dbl.mul rnd (Dbl.sub rnd p.1 (fixRangeF rnd spacing range).1) dx =
        computed rnd (fixRangeF rnd spacing range).1 dx p.1 from rfl]
      by_cases hg : guardF1 rnd .ngp bins (computed rnd (fixRangeF rnd spacing range).1 dx p.1) = true
      · simp only [if_pos hg, (ngp_cells hr _).1, weightAtF, bind, Except.bind, List.map_cons, List.map_nil, (ngp_cells hr .nan).2]
        rfl
      · simp only [if_neg hg]
        rfl) (by
      intro p _ i hi
      by_cases hg : guardF1 rnd .ngp bins (computed rnd (fixRangeF rnd spacing range).1 dx p.1) = true
      · rw [if_pos hg] at hi
        obtain ⟨g0, g1, g2⟩ := guardF1_ref hb hg
        have := cellsF_inRange (rnd := rnd) (c := ((computed rnd (fixRangeF rnd spacing range).1 dx p.1).cast, Dbl.fin 1)) g0 g1 g2
          (by rw [(ngp_cells hr _).1]; simp)
        rw [← Option.some.inj hi]
        exact this
      · rw [if_neg hg] at hi
        cases hi) (by simpa using hn)
  unfold histogramF
  simp only [hdx, h1, bind, Except.bind]
  refine congrArg Except.ok (List.map_congr_left fun i hi => ?_)
  rw [h2]
  congr 2
  rw [show data.countP _ = (data.zipIdx.map Prod.fst).countP _ by rw [List.zipIdx_map_fst], List.countP_map]
  refine List.countP_congr fun p _ => ?_
  have key := inBin_iff (rnd := rnd) hb (List.mem_range.1 hi) (computed rnd (fixRangeF rnd spacing range).1 dx p.1)
  simp only [Function.comp_apply, decide_eq_true_eq, ← key]
  by_cases hg : guardF1 rnd .ngp bins (computed rnd (fixRangeF rnd spacing range).1 dx p.1) = true
  · simp [hg, supp]
  · simp [hg]

/-- C118: the same in two dimensions. -/
theorem histogram2d_counts (rnd : K → Dbl K) (hr : Rounding rnd) (spacing : Dbl K → Dbl K) (datax datay : List (Dbl K))
    (hl : datax.length = datay.length) (rangex rangey : Dbl K × Dbl K) (xb yb : ℕ) (hxb : xb ≤ 2 ^ 31) (hyb : yb ≤ 2 ^ 31)
    (hn : datax.length ≤ 2 ^ 31) (dx dy : Dbl K) (hdx : invSpacingF rnd (fixRangeF rnd spacing rangex) xb = .ok dx)
    (hdy : invSpacingF rnd (fixRangeF rnd spacing rangey) yb = .ok dy) :
    histogram2dF rnd spacing .ngp datax datay rangex rangey xb yb none = .ok ((List.range xb).map fun i => (List.range yb).map fun j =>
      .fin (((datax.zip datay).countP fun d => inBin i (computed rnd (fixRangeF rnd spacing rangex).1 dx d.1) &&
        inBin j (computed rnd (fixRangeF rnd spacing rangey).1 dy d.2) : ℕ) : K)) := by
  let X : Dbl K → Dbl K := computed rnd (fixRangeF rnd spacing rangex).1 dx
  let Y : Dbl K → Dbl K := computed rnd (fixRangeF rnd spacing rangey).1 dy
  have hg2 : ∀ x y : Dbl K, guardF2 rnd .ngp xb yb x y = (guardF1 rnd .ngp xb x && guardF1 rnd .ngp yb y) := by
    intro x y
    simp only [guardF2, guardF1]
    cases (Dbl.fin 0).lt x <;> cases (Dbl.fin 0).lt y <;> simp
  obtain ⟨m, h1, h2⟩ := loopF_count hr (fun ij : ℤ × ℤ => inRange (xb + 2 * supp .ngp) ij.1 && inRange (yb + 2 * supp .ngp) ij.2)
    (actF2 rnd .ngp xb yb (fixRangeF rnd spacing rangex).1 dx (fixRangeF rnd spacing rangey).1 dy none)
    (fun p => if guardF2 rnd .ngp xb yb (X p.1.1) (Y p.1.2) = true then some ((X p.1.1).cast, (Y p.1.2).cast) else none)
    (datax.zip datay).zipIdx (by
      intro p _
      unfold actF2
      simp only [show Dbl.mul rnd (Dbl.sub rnd p.1.1 (fixRangeF rnd spacing rangex).1) dx = X p.1.1 from rfl,
        show Dbl.mul rnd (Dbl.sub rnd p.1.2 (fixRangeF rnd spacing rangey).1) dy = Y p.1.2 from rfl]
      by_cases hg : guardF2 rnd .ngp xb yb (X p.1.1) (Y p.1.2) = true
      · simp only [if_pos hg, (ngp_cells hr _).1, weightAtF, bind, Except.bind, List.map_cons, List.map_nil, List.flatMap_cons,
          List.flatMap_nil, (ngp_cells hr .nan).2]
        rfl
      · simp only [if_neg hg]
        rfl) (by
      intro p _ i hi
      by_cases hg : guardF2 rnd .ngp xb yb (X p.1.1) (Y p.1.2) = true
      · rw [if_pos hg] at hi
        rw [hg2, Bool.and_eq_true] at hg
        obtain ⟨g0, g1, g2⟩ := guardF1_ref hxb hg.1
        obtain ⟨k0, k1, k2⟩ := guardF1_ref hyb hg.2
        have hX := cellsF_inRange (rnd := rnd) (c := ((X p.1.1).cast, Dbl.fin 1)) g0 g1 g2 (by rw [(ngp_cells hr _).1]; simp)
        have hY := cellsF_inRange (rnd := rnd) (c := ((Y p.1.2).cast, Dbl.fin 1)) k0 k1 k2 (by rw [(ngp_cells hr _).1]; simp)
        rw [← Option.some.inj hi]
        simp only [hX, hY, Bool.and_self]
      · rw [if_neg hg] at hi
        cases hi) (by simp only [List.length_zipIdx, List.length_zip]; omega)
  unfold histogram2dF
  simp only [ne_eq, hl, not_true_eq_false, if_false, hdx, hdy, h1, bind, Except.bind]
  refine congrArg Except.ok (List.map_congr_left fun i hi => List.map_congr_left fun j hj => ?_)
  rw [h2]
  congr 2
  rw [show (datax.zip datay).countP _ = ((datax.zip datay).zipIdx.map Prod.fst).countP _ by rw [List.zipIdx_map_fst], List.countP_map]
  refine List.countP_congr fun p _ => ?_
  have keyx := inBin_iff (rnd := rnd) hxb (List.mem_range.1 hi) (X p.1.1)
  have keyy := inBin_iff (rnd := rnd) hyb (List.mem_range.1 hj) (Y p.1.2)
  simp only [Function.comp_apply, decide_eq_true_eq, Bool.and_eq_true]
  rw [show computed rnd (fixRangeF rnd spacing rangex).1 dx p.1.1 = X p.1.1 from rfl,
    show computed rnd (fixRangeF rnd spacing rangey).1 dy p.1.2 = Y p.1.2 from rfl, ← keyx, ← keyy, hg2]
  cases hx : guardF1 rnd .ngp xb (X p.1.1) <;> cases hy : guardF1 rnd .ngp yb (Y p.1.2) <;> simp [supp]

/-- C118: the same in three dimensions. -/
theorem histogram3d_counts (rnd : K → Dbl K) (hr : Rounding rnd) (spacing : Dbl K → Dbl K) (datax datay dataz : List (Dbl K))
    (hl : datax.length = datay.length) (hl' : datax.length = dataz.length) (rangex rangey rangez : Dbl K × Dbl K) (xb yb zb : ℕ)
    (hxb : xb ≤ 2 ^ 31) (hyb : yb ≤ 2 ^ 31) (hzb : zb ≤ 2 ^ 31) (hn : datax.length ≤ 2 ^ 31) (dx dy dz : Dbl K)
    (hdx : invSpacingF rnd (fixRangeF rnd spacing rangex) xb = .ok dx) (hdy : invSpacingF rnd (fixRangeF rnd spacing rangey) yb = .ok dy)
    (hdz : invSpacingF rnd (fixRangeF rnd spacing rangez) zb = .ok dz) :
    histogram3dF rnd spacing .ngp datax datay dataz rangex rangey rangez xb yb zb none =
      .ok ((List.range xb).map fun i => (List.range yb).map fun j => (List.range zb).map fun k =>
      .fin (((datax.zip (datay.zip dataz)).countP fun d => inBin i (computed rnd (fixRangeF rnd spacing rangex).1 dx d.1) &&
        (inBin j (computed rnd (fixRangeF rnd spacing rangey).1 dy d.2.1) &&
          inBin k (computed rnd (fixRangeF rnd spacing rangez).1 dz d.2.2)) : ℕ) : K)) := by
  let X : Dbl K → Dbl K := computed rnd (fixRangeF rnd spacing rangex).1 dx
  let Y : Dbl K → Dbl K := computed rnd (fixRangeF rnd spacing rangey).1 dy
  let Z : Dbl K → Dbl K := computed rnd (fixRangeF rnd spacing rangez).1 dz
  have hg3 : ∀ x y z : Dbl K, guardF3 rnd .ngp xb yb zb x y z =
      (guardF1 rnd .ngp xb x && (guardF1 rnd .ngp yb y && guardF1 rnd .ngp zb z)) := by
    intro x y z
    simp only [guardF3, guardF1]
    cases (Dbl.fin 0).lt x <;> cases (Dbl.fin 0).lt y <;> cases (Dbl.fin 0).lt z <;> simp [Bool.and_assoc]
  obtain ⟨m, h1, h2⟩ := loopF_count hr (fun ij : ℤ × ℤ × ℤ => inRange (xb + 2 * supp .ngp) ij.1 &&
      (inRange (yb + 2 * supp .ngp) ij.2.1 && inRange (zb + 2 * supp .ngp) ij.2.2))
    (actF3 rnd .ngp xb yb zb (fixRangeF rnd spacing rangex).1 dx (fixRangeF rnd spacing rangey).1 dy
      (fixRangeF rnd spacing rangez).1 dz none)
    (fun p => if guardF3 rnd .ngp xb yb zb (X p.1.1) (Y p.1.2.1) (Z p.1.2.2) = true then
      some ((X p.1.1).cast, (Y p.1.2.1).cast, (Z p.1.2.2).cast) else none)
    (datax.zip (datay.zip dataz)).zipIdx (by
      intro p _
      unfold actF3
      simp only [show Dbl.mul rnd (Dbl.sub rnd p.1.1 (fixRangeF rnd spacing rangex).1) dx = X p.1.1 from rfl,
        show Dbl.mul rnd (Dbl.sub rnd p.1.2.1 (fixRangeF rnd spacing rangey).1) dy = Y p.1.2.1 from rfl,
        show Dbl.mul rnd (Dbl.sub rnd p.1.2.2 (fixRangeF rnd spacing rangez).1) dz = Z p.1.2.2 from rfl]
      by_cases hg : guardF3 rnd .ngp xb yb zb (X p.1.1) (Y p.1.2.1) (Z p.1.2.2) = true
      · simp only [if_pos hg, (ngp_cells hr _).1, weightAtF, bind, Except.bind, List.map_cons, List.map_nil, List.flatMap_cons,
          List.flatMap_nil, (ngp_cells hr .nan).2]
        rfl
      · simp only [if_neg hg]
        rfl) (by
      intro p _ i hi
      by_cases hg : guardF3 rnd .ngp xb yb zb (X p.1.1) (Y p.1.2.1) (Z p.1.2.2) = true
      · rw [if_pos hg] at hi
        rw [hg3, Bool.and_eq_true, Bool.and_eq_true] at hg
        obtain ⟨g0, g1, g2⟩ := guardF1_ref hxb hg.1
        obtain ⟨k0, k1, k2⟩ := guardF1_ref hyb hg.2.1
        obtain ⟨l0, l1, l2⟩ := guardF1_ref hzb hg.2.2
        have hX := cellsF_inRange (rnd := rnd) (c := ((X p.1.1).cast, Dbl.fin 1)) g0 g1 g2 (by rw [(ngp_cells hr _).1]; simp)
        have hY := cellsF_inRange (rnd := rnd) (c := ((Y p.1.2.1).cast, Dbl.fin 1)) k0 k1 k2 (by rw [(ngp_cells hr _).1]; simp)
        have hZ := cellsF_inRange (rnd := rnd) (c := ((Z p.1.2.2).cast, Dbl.fin 1)) l0 l1 l2 (by rw [(ngp_cells hr _).1]; simp)
        rw [← Option.some.inj hi]
        simp only [hX, hY, hZ, Bool.and_self]
      · rw [if_neg hg] at hi
        cases hi) (by simp only [List.length_zipIdx, List.length_zip]; omega)
  unfold histogram3dF
  simp only [ne_eq, ← hl, ← hl', not_true_eq_false, if_false, hdx, hdy, hdz, h1, bind, Except.bind]
  refine congrArg Except.ok (List.map_congr_left fun i hi => List.map_congr_left fun j hj => List.map_congr_left fun k hk => ?_)
  rw [h2]
  congr 2
  rw [show (datax.zip (datay.zip dataz)).countP _ = ((datax.zip (datay.zip dataz)).zipIdx.map Prod.fst).countP _ by
    rw [List.zipIdx_map_fst], List.countP_map]
  refine List.countP_congr fun p _ => ?_
  have keyx := inBin_iff (rnd := rnd) hxb (List.mem_range.1 hi) (X p.1.1)
  have keyy := inBin_iff (rnd := rnd) hyb (List.mem_range.1 hj) (Y p.1.2.1)
  have keyz := inBin_iff (rnd := rnd) hzb (List.mem_range.1 hk) (Z p.1.2.2)
  simp only [Function.comp_apply, decide_eq_true_eq, Bool.and_eq_true]
  rw [show computed rnd (fixRangeF rnd spacing rangex).1 dx p.1.1 = X p.1.1 from rfl,
    show computed rnd (fixRangeF rnd spacing rangey).1 dy p.1.2.1 = Y p.1.2.1 from rfl,
    show computed rnd (fixRangeF rnd spacing rangez).1 dz p.1.2.2 = Z p.1.2.2 from rfl, ← keyx, ← keyy, ← keyz, hg3]
  cases hx : guardF1 rnd .ngp xb (X p.1.1) <;> cases hy : guardF1 rnd .ngp yb (Y p.1.2.1) <;>
    cases hz : guardF1 rnd .ngp zb (Z p.1.2.2) <;> simp [supp]

end

/-! ### Witnesses -/

/-- C118 is violated in two dimensions: a particle at infinity along the second axis with the tophat shape is written outside of the
array. -/
theorem histogram2d_float_safe_violated :
    histogram2dF (Dbl.fin : ℚ → Dbl ℚ) (fun _ => .fin (1 / 2 ^ 52)) .tophat [.fin 1] [.inf false] (.fin 0, .fin 4) (.fin 0, .fin 4)
      4 4 none = .error .undefinedBehaviour := by decide +kernel

/-- The same in three dimensions along the third axis. -/
theorem histogram3d_float_safe_violated :
    histogram3dF (Dbl.fin : ℚ → Dbl ℚ) (fun _ => .fin (1 / 2 ^ 52)) .tophat [.fin 1] [.fin 1] [.inf false] (.fin 0, .fin 4)
      (.fin 0, .fin 4) (.fin 0, .fin 4) 4 4 4 none = .error .undefinedBehaviour := by decide +kernel

/-! ### Examples -/

/-- Fixed point numbers with 20 binary places, rounded down, which overflow above 2³³. -/
def fixedPoint (x : ℚ) : Dbl ℚ :=
  if x < -2 ^ 33 then .inf true else if 2 ^ 33 < x then .inf false else .fin (⌊x * 2 ^ 20⌋ / 2 ^ 20)

theorem fixedPoint_rounding : Rounding fixedPoint where
  mono x y h := by
    unfold fixedPoint
    by_cases h1 : x < -2 ^ 33
    · rw [if_pos h1]
      split_ifs <;> rfl
    rw [if_neg h1, if_neg (show ¬ y < -2 ^ 33 by linarith)]
    by_cases h2 : 2 ^ 33 < y
    · rw [if_pos h2]
      split_ifs <;> rfl
    rw [if_neg h2, if_neg (show ¬ 2 ^ 33 < x by linarith)]
    simp only [Dbl.le, decide_eq_true_eq]
    have : ⌊x * 2 ^ 20⌋ ≤ ⌊y * 2 ^ 20⌋ := Int.floor_le_floor (by linarith)
    have : ((⌊x * 2 ^ 20⌋ : ℤ) : ℚ) ≤ ⌊y * 2 ^ 20⌋ := by exact_mod_cast this
    exact div_le_div_of_nonneg_right this (by norm_num)
  exact n h := by
    have h1 := abs_le.1 h
    have h2 : (-2 ^ 32 : ℚ) ≤ n := by exact_mod_cast h1.1
    have h3 : (n : ℚ) ≤ 2 ^ 32 := by exact_mod_cast h1.2
    unfold fixedPoint
    rw [if_neg (by linarith), if_neg (by linarith)]
    have e : (n : ℚ) / 2 * 2 ^ 20 = ((n * 2 ^ 19 : ℤ) : ℚ) := by push_cast; ring
    rw [e, Int.floor_intCast]
    push_cast
    congr 1
    ring

example : ∃ h, histogramF fixedPoint (fun _ => .fin (1 / 2 ^ 20)) .spline3 [.fin (1 / 3), .nan, .inf true, .fin (2 ^ 40), .fin (11 / 7)]
    (.fin 0, .fin (7 / 3)) 5 (some [.fin 1, .nan, .fin 2, .fin 3, .inf false]) = .ok h ∧ h.length = 5 :=
  (histogram_float_safe fixedPoint (fun _ => .fin (1 / 2 ^ 20)) .spline3 _ _ 5 (by norm_num) _ (by intro w hw; cases hw; rfl)).2 (by
    decide +kernel)

example : histogramF fixedPoint (fun _ => .fin (1 / 2 ^ 20)) .ngp [.fin (1 / 3), .nan, .inf true, .fin (2 ^ 40), .fin (11 / 7), .fin (5 / 3)]
    (.fin 0, .fin (7 / 3)) 5 none = .ok [.fin 1, .fin 0, .fin 0, .fin 2, .fin 0] := by decide +kernel

example : histogramF fixedPoint (fun _ => .fin (1 / 2 ^ 20)) .tophat [.fin (1 / 3)] (.nan, .fin 2) 3 none =
    .ok [.fin 0, .fin 0, .fin 0] := by decide +kernel

example : ∃ h, histogram2dF fixedPoint (fun _ => .fin (1 / 2 ^ 20)) .triangle [.fin (1 / 3), .inf false, .fin 1] [.nan, .fin 1, .fin (2 / 7)]
    (.fin 0, .fin (5 / 2)) (.fin 0, .fin 1) 5 4 none = .ok h ∧ h.length = 5 ∧ ∀ row ∈ h, row.length = 4 :=
  histogram2d_float_safe_partial fixedPoint fixedPoint_rounding (fun _ => .fin (1 / 2 ^ 20)) .triangle [.fin (1 / 3), .inf false, .fin 1]
    [.nan, .fin 1, .fin (2 / 7)] rfl (.fin 0, .fin (5 / 2)) (.fin 0, .fin 1) 5 4 (by norm_num) (by norm_num) none (by simp)
    (.fin (2097150 / 2 ^ 20)) (.fin 4) (by decide +kernel) (by decide +kernel) (Or.inr (by decide +kernel))

example : ∃ h, histogram3dF fixedPoint (fun _ => .fin (1 / 2 ^ 20)) .tophat [.fin (1 / 3), .inf false] [.nan, .fin 1]
    [.fin 1, .fin (2 / 7)] (.fin 0, .fin (5 / 2)) (.fin 0, .fin 1) (.fin 0, .fin 1) 5 4 4 none = .ok h ∧ h.length = 5 ∧
      ∀ m ∈ h, m.length = 4 ∧ ∀ row ∈ m, row.length = 4 :=
  histogram3d_float_safe_partial fixedPoint fixedPoint_rounding (fun _ => .fin (1 / 2 ^ 20)) .tophat [.fin (1 / 3), .inf false]
    [.nan, .fin 1] [.fin 1, .fin (2 / 7)] rfl rfl (.fin 0, .fin (5 / 2)) (.fin 0, .fin 1) (.fin 0, .fin 1) 5 4 4 (by norm_num)
    (by norm_num) (by norm_num) none (by simp) (.fin (2097150 / 2 ^ 20)) (.fin 4) (.fin 4) (by decide +kernel) (by decide +kernel)
    (by decide +kernel) (Or.inr (by decide +kernel)) (Or.inr (by decide +kernel))

/-! ### The theorems applied -/

example := histogram_not_finite fixedPoint (fun _ => .fin (1 / 2 ^ 20)) .spline3
  [(.fin (1 / 3), .fin 1), (.nan, .fin 2), (.inf true, .nan), (.fin 2, .inf false)] (.fin 0, .fin (7 / 3)) 5 (fun p => finite p.1)
  (fun _ _ h => h)
example := histogram2d_not_finite_partial fixedPoint (fun _ => .fin (1 / 2 ^ 20)) .triangle
  [((.fin (1 / 3), .fin 1), .fin 1), ((.nan, .fin 2), .fin 2), ((.fin 1, .nan), .nan), ((.fin 2, .inf false), .fin 1)]
  (.fin 0, .fin (7 / 3)) (.fin 0, .fin 1) 5 4 (fun p => finite p.1.1 && p.1.2 ≠ .nan) (by decide +kernel)
example := histogram3d_not_finite_partial fixedPoint (fun _ => .fin (1 / 2 ^ 20)) .triangle
  [((.fin (1 / 3), .fin 1, .fin 2), .fin 1), ((.nan, .fin 2, .fin 1), .fin 2), ((.fin 1, .nan, .fin 1), .nan), ((.fin 2, .fin 1, .inf false), .fin 1)]
  (.fin 0, .fin (7 / 3)) (.fin 0, .fin 1) (.fin 0, .fin 1) 5 4 4 (fun p => finite p.1.1 && p.1.2.1 ≠ .nan && finite p.1.2.2) (by decide +kernel)
example := histogram_exact (fun _ => (1 / 1000 : ℚ)) (fun _ => .fin (1 / 1000)) (fun _ => rfl) .spline3 [1, 5 / 2, -20] (0, 4) 4 (some [2, 3, 4])
example := histogram2d_exact (fun _ => (1 / 1000 : ℚ)) (fun _ => .fin (1 / 1000)) (fun _ => rfl) .triangle [1, 5 / 2] [2, 1] (0, 4) (-1, 5) 4 3 none
example := histogram3d_exact (fun _ => (1 / 1000 : ℚ)) (fun _ => .fin (1 / 1000)) (fun _ => rfl) .tophat [1, 5 / 2] [2, 1] [1, 1]
  (0, 4) (-1, 5) (0, 1) 4 3 2 none
example := histogram_counts fixedPoint fixedPoint_rounding (fun _ => .fin (1 / 2 ^ 20)) [.fin (1 / 3), .nan, .inf true, .fin (11 / 7)]
  (.fin 0, .fin (5 / 2)) 5 (by norm_num) (by norm_num) (.fin (2097150 / 2 ^ 20)) (by decide +kernel)
example := histogram2d_counts fixedPoint fixedPoint_rounding (fun _ => .fin (1 / 2 ^ 20)) [.fin (1 / 3), .nan] [.fin (1 / 2), .fin 1] rfl
  (.fin 0, .fin (5 / 2)) (.fin 0, .fin 1) 5 4 (by norm_num) (by norm_num) (by norm_num) (.fin (2097150 / 2 ^ 20)) (.fin 4)
  (by decide +kernel) (by decide +kernel)
example := histogram3d_counts fixedPoint fixedPoint_rounding (fun _ => .fin (1 / 2 ^ 20)) [.fin (1 / 3), .nan] [.fin (1 / 2), .fin 1]
  [.fin (1 / 2), .inf true] rfl rfl (.fin 0, .fin (5 / 2)) (.fin 0, .fin 1) (.fin 0, .fin 1) 5 4 4 (by norm_num) (by norm_num) (by norm_num)
  (by norm_num) (.fin (2097150 / 2 ^ 20)) (.fin 4) (.fin 4) (by decide +kernel) (by decide +kernel) (by decide +kernel)

end Postpic.Props
