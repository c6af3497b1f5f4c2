import Verif.Lemmas.RoundingErrorNd
import Verif.Props.RoundingError
import Mathlib.Algebra.Group.Action.Defs

/-!
# Rounding errors of the particle deposition in two and three dimensions
-/

set_option autoImplicit false
set_option linter.unusedSectionVars false

namespace Postpic.Props

open Postpic Postpic.Histogram Postpic.Spec

section
variable {K : Type} [Field K] [LinearOrder K] [IsStrictOrderedRing K] [FloorRing K]

/-- C119 in two dimensions, as `histogram_conserved_rounded`. -/
theorem histogram2d_conserved_rounded (rnd : K → Dbl K) (u : K) (A : Accurate rnd u) (spacing : Dbl K → Dbl K) (s : Shape)
    (ps : List ((Dbl K × Dbl K) × K)) (rx ry : Dbl K × Dbl K) (xbins ybins : ℕ) (hx : xbins ≤ 2 ^ 31) (hy : ybins ≤ 2 ^ 31)
    (hX : u * (xbins + 2) ≤ 1 / 4096) (hY : u * (ybins + 2) ≤ 1 / 4096) (dx dy : Dbl K)
    (hdx : invSpacingF rnd (fixRangeF rnd spacing rx) xbins = .ok dx) (hdy : invSpacingF rnd (fixRangeF rnd spacing ry) ybins = .ok dy)
    (hps : ∀ p ∈ ps, inside xbins (computed rnd (fixRangeF rnd spacing rx).1 dx p.1.1) ∧
      inside ybins (computed rnd (fixRangeF rnd spacing ry).1 dy p.1.2)) :
    ∃ h : List (List K), histogram2dF rnd spacing s (ps.map fun p => p.1.1) (ps.map fun p => p.1.2) rx ry xbins ybins
        (some (ps.map fun p => .fin p.2)) = .ok (h.map fun row => row.map Dbl.fin) ∧
      h.length = xbins ∧ (∀ row ∈ h, row.length = ybins) ∧
      |(h.map List.sum).sum - (ps.map Prod.snd).sum| ≤
        (200 * (xbins + ybins + 4) * u + 65 * ((1 + u) ^ (16 * ps.length) - 1)) * (ps.map fun p => |p.2|).sum := by
  have hu := A.nonneg
  obtain ⟨m, l, m1, m2, m3, m4, m5⟩ := particles_near A (fun ij : ℤ × ℤ => inRange (xbins + 2 * supp s) ij.1 && inRange (ybins + 2 * supp s) ij.2)
    (fun p : (Dbl K × Dbl K) × K =>
      if guardF2 rnd s xbins ybins (computed rnd (fixRangeF rnd spacing rx).1 dx p.1.1) (computed rnd (fixRangeF rnd spacing ry).1 dy p.1.2) = true
      then (.ok ((cellsF rnd s (computed rnd (fixRangeF rnd spacing rx).1 dx p.1.1)).flatMap fun cx =>
          (cellsF rnd s (computed rnd (fixRangeF rnd spacing ry).1 dy p.1.2)).map fun cy =>
            ((cx.1, cy.1), Dbl.mul rnd (Dbl.mul rnd cx.2 cy.2) (.fin p.2))) : Res (List ((ℤ × ℤ) × Dbl K))) else .ok [])
    Prod.snd ps (200 * (xbins + ybins + 4) * u) 65 16
    (fun ij => ((supp s : ℤ) ≤ ij.1 ∧ ij.1 < supp s + xbins) ∧ (supp s : ℤ) ≤ ij.2 ∧ ij.2 < supp s + ybins) (by
      intro p hp
      obtain ⟨v, ev, v0, v1⟩ := inside_fin (hps p hp).1
      obtain ⟨v', ev', v0', v1'⟩ := inside_fin (hps p hp).2
      rw [ev, ev']
      rw [if_pos (inner_guard2 A s hx hy v0 v1 v0' v1' hX hY)]
      obtain ⟨lx, x1, x2, x3, x4, x5⟩ := inner_cells A s hx v0 v1 hX
      obtain ⟨ly, y1, y2, y3, y4, y5⟩ := inner_cells A s hy v0' v1' hY
      obtain ⟨l, e1, e2, e3, e4⟩ := product_near A Prod.mk lx ly
      obtain ⟨l', f1, f2, f3, f4⟩ := times_near A id p.2 l
      have hX6 : 6 * u ≤ u * (xbins + 2) := by nlinarith
      have hY6 : 6 * u ≤ u * (ybins + 2) := by nlinarith
      obtain ⟨b1, b2⟩ := bound2 hu hX6 hY6 hX hY x3 y3 x4 y4 (tot'_nonneg _) (tot'_nonneg _) e3 e4
      have hw := abs_nonneg p.2
      refine ⟨l', ?_, ?_, ?_, ?_, ?_⟩
      · rw [← f1, ← e1, x1, y1, List.map_flatMap]
        simp only [List.map_map]
        rfl
      · have : ∀ i ∈ l'.map Prod.fst, (inRange (xbins + 2 * supp s) i.1 && inRange (ybins + 2 * supp s) i.2) = true ∧
            ((supp s : ℤ) ≤ i.1 ∧ i.1 < supp s + xbins) ∧ (supp s : ℤ) ≤ i.2 ∧ i.2 < supp s + ybins := by
          intro i hi
          rw [f2, show (l.map fun c => id c.1) = l.map Prod.fst from rfl, e2] at hi
          obtain ⟨c, hc, hi⟩ := List.mem_flatMap.1 hi
          obtain ⟨d, hd, rfl⟩ := List.mem_map.1 hi
          obtain ⟨i0, i1⟩ := x2 c hc
          obtain ⟨j0, j1⟩ := y2 d hd
          refine ⟨?_, ⟨i0, i1⟩, j0, j1⟩
          simp only [inRange, Bool.and_eq_true, decide_eq_true_eq]
          push_cast
          omega
        intro c hc
        exact this c.1 (List.mem_map_of_mem hc)
      · have k1 : |tot l * p.2 - p.2| ≤ (176 * (u * (xbins + 2)) + 168 * (u * (ybins + 2)) + 64 * u) * |p.2| := by
          rw [show tot l * p.2 - p.2 = (tot l - 1) * p.2 by ring, abs_mul]
          exact mul_le_mul_of_nonneg_right b1 hw
        have k2 : u * tot' l * |p.2| ≤ 65 * u * |p.2| := by
          apply mul_le_mul_of_nonneg_right _ hw
          nlinarith
        have := abs_add_le (tot l' - tot l * p.2) (tot l * p.2 - p.2)
        rw [sub_add_sub_cancel] at this
        have k3 : (176 * (u * (xbins + 2)) + 168 * (u * (ybins + 2)) + 64 * u + 65 * u) * |p.2| ≤ 200 * (xbins + ybins + 4) * u * |p.2| := by
          apply mul_le_mul_of_nonneg_right _ hw
          calc _ ≤ 200 * (u * (xbins + 2) + u * (ybins + 2)) := by linarith
            _ = _ := by ring
        linarith
      · have hu1 : u ≤ 1 / 4096 := by linarith
        have : (1 + u) * tot' l ≤ 65 := by nlinarith [tot'_nonneg l]
        exact le_trans f4 (mul_le_mul_of_nonneg_right this hw)
      · have h1 := congrArg List.length f2
        have h2 := congrArg List.length e2
        simp only [List.length_map, List.length_flatMap, List.map_const', List.sum_replicate, smul_eq_mul] at h1 h2
        rw [h1, h2]
        calc lx.length * ly.length ≤ 4 * 4 := Nat.mul_le_mul x5 y5
          _ = 16 := rfl)
  refine ⟨(List.range xbins).map fun i : ℕ => (List.range ybins).map fun j : ℕ => m ((supp s : ℤ) + i, (supp s : ℤ) + j), ?_, by simp, ?_, ?_⟩
  · have hloop : loopF rnd (fun ij : ℤ × ℤ => inRange (xbins + 2 * supp s) ij.1 && inRange (ybins + 2 * supp s) ij.2)
        (actF2 rnd s xbins ybins (fixRangeF rnd spacing rx).1 dx (fixRangeF rnd spacing ry).1 dy (some (ps.map fun p => .fin p.2)))
        (ps.map Prod.fst).zipIdx = .ok fun i => .fin (m i) := by
      rw [← m1]
      apply loopF_particles
      intro i p hp
      unfold actF2
      simp only [weightAtF, List.getElem?_map, hp, Option.map_some]
      rfl
    unfold histogram2dF
    have hz : (ps.map fun p => p.1.1).zip (ps.map fun p => p.1.2) = ps.map Prod.fst := by
      rw [List.zip_map', List.map_congr_left]
      intro p _
      rfl
    simp only [List.length_map, ne_eq, not_true_eq_false, if_false, hz, hdx, hdy, hloop, bind, Except.bind, pure, Except.pure]
    rw [List.map_map]
    simp only [Function.comp_def, List.map_map]
  · intro row hrow
    obtain ⟨i, _, rfl⟩ := List.mem_map.1 hrow
    simp
  · have s1 := sum_near (n := xbins) (fun i : ℕ => ((List.range ybins).map fun j : ℕ => m ((supp s : ℤ) + i, (supp s : ℤ) + j)).sum)
      (fun i : ℕ => ((List.range ybins).map fun j : ℕ => ((valuesAt ((supp s : ℤ) + (i : ℤ), (supp s : ℤ) + (j : ℤ)) l).map id).sum).sum)
      (fun i : ℕ => ((1 + u) ^ (16 * ps.length) - 1) *
        ((List.range ybins).map fun j : ℕ => ((valuesAt ((supp s : ℤ) + (i : ℤ), (supp s : ℤ) + (j : ℤ)) l).map abs).sum).sum)
      (fun i _ => by
        have := sum_near (n := ybins) (fun j : ℕ => m ((supp s : ℤ) + i, (supp s : ℤ) + j))
          (fun j : ℕ => ((valuesAt ((supp s : ℤ) + (i : ℤ), (supp s : ℤ) + (j : ℤ)) l).map id).sum)
          (fun j : ℕ => ((1 + u) ^ (16 * ps.length) - 1) * ((valuesAt ((supp s : ℤ) + (i : ℤ), (supp s : ℤ) + (j : ℤ)) l).map abs).sum)
          (fun j _ => by simpa using m3 _)
        rwa [List.sum_map_mul_left] at this)
    rw [sum_valuesAt2 id _ m2, List.sum_map_mul_left, sum_valuesAt2 abs _ m2] at s1
    exact combine (one_le_pow₀ (by linarith)) m4 m5 (by rw [List.map_map]; exact s1)

set_option maxHeartbeats 1000000 in
/-- C119 in three dimensions. -/
theorem histogram3d_conserved_rounded (rnd : K → Dbl K) (u : K) (A : Accurate rnd u) (spacing : Dbl K → Dbl K) (s : Shape)
    (ps : List ((Dbl K × Dbl K × Dbl K) × K)) (rx ry rz : Dbl K × Dbl K) (xbins ybins zbins : ℕ)
    (hx : xbins ≤ 2 ^ 31) (hy : ybins ≤ 2 ^ 31) (hz : zbins ≤ 2 ^ 31)
    (hX : u * (xbins + 2) ≤ 1 / 4096) (hY : u * (ybins + 2) ≤ 1 / 4096) (hZ : u * (zbins + 2) ≤ 1 / 4096) (dx dy dz : Dbl K)
    (hdx : invSpacingF rnd (fixRangeF rnd spacing rx) xbins = .ok dx) (hdy : invSpacingF rnd (fixRangeF rnd spacing ry) ybins = .ok dy)
    (hdz : invSpacingF rnd (fixRangeF rnd spacing rz) zbins = .ok dz)
    (hps : ∀ p ∈ ps, inside xbins (computed rnd (fixRangeF rnd spacing rx).1 dx p.1.1) ∧
      inside ybins (computed rnd (fixRangeF rnd spacing ry).1 dy p.1.2.1) ∧
      inside zbins (computed rnd (fixRangeF rnd spacing rz).1 dz p.1.2.2)) :
    ∃ h : List (List (List K)), histogram3dF rnd spacing s (ps.map fun p => p.1.1) (ps.map fun p => p.1.2.1) (ps.map fun p => p.1.2.2)
        rx ry rz xbins ybins zbins (some (ps.map fun p => .fin p.2)) = .ok (h.map fun plane => plane.map fun row => row.map Dbl.fin) ∧
      h.length = xbins ∧ (∀ plane ∈ h, plane.length = ybins ∧ ∀ row ∈ plane, row.length = zbins) ∧
      |(h.map fun plane => (plane.map List.sum).sum).sum - (ps.map Prod.snd).sum| ≤
        (250 * (xbins + ybins + zbins + 6) * u + 521 * ((1 + u) ^ (64 * ps.length) - 1)) * (ps.map fun p => |p.2|).sum := by
  have hu := A.nonneg
  obtain ⟨m, l, m1, m2, m3, m4, m5⟩ := particles_near A (fun ij : ℤ × ℤ × ℤ => inRange (xbins + 2 * supp s) ij.1 &&
      (inRange (ybins + 2 * supp s) ij.2.1 && inRange (zbins + 2 * supp s) ij.2.2))
    (fun p : (Dbl K × Dbl K × Dbl K) × K =>
      if guardF3 rnd s xbins ybins zbins (computed rnd (fixRangeF rnd spacing rx).1 dx p.1.1)
        (computed rnd (fixRangeF rnd spacing ry).1 dy p.1.2.1) (computed rnd (fixRangeF rnd spacing rz).1 dz p.1.2.2) = true
      then (.ok ((cellsF rnd s (computed rnd (fixRangeF rnd spacing rx).1 dx p.1.1)).flatMap fun cx =>
          (cellsF rnd s (computed rnd (fixRangeF rnd spacing ry).1 dy p.1.2.1)).flatMap fun cy =>
          (cellsF rnd s (computed rnd (fixRangeF rnd spacing rz).1 dz p.1.2.2)).map fun cz =>
            ((cx.1, cy.1, cz.1), Dbl.mul rnd (Dbl.mul rnd (Dbl.mul rnd cx.2 cy.2) cz.2) (.fin p.2))) :
          Res (List ((ℤ × ℤ × ℤ) × Dbl K))) else .ok [])
    Prod.snd ps (250 * (xbins + ybins + zbins + 6) * u) 521 64
    (fun ij => ((supp s : ℤ) ≤ ij.1 ∧ ij.1 < supp s + xbins) ∧ ((supp s : ℤ) ≤ ij.2.1 ∧ ij.2.1 < supp s + ybins) ∧
      (supp s : ℤ) ≤ ij.2.2 ∧ ij.2.2 < supp s + zbins) (by
      intro p hp
      obtain ⟨v, ev, v0, v1⟩ := inside_fin (hps p hp).1
      obtain ⟨v', ev', v0', v1'⟩ := inside_fin (hps p hp).2.1
      obtain ⟨v'', ev'', v0'', v1''⟩ := inside_fin (hps p hp).2.2
      rw [ev, ev', ev'']
      rw [if_pos (inner_guard3 A s hx hy hz v0 v1 v0' v1' v0'' v1'' hX hY hZ)]
      obtain ⟨lx, x1, x2, x3, x4, x5⟩ := inner_cells A s hx v0 v1 hX
      obtain ⟨ly, y1, y2, y3, y4, y5⟩ := inner_cells A s hy v0' v1' hY
      obtain ⟨lz, z1, z2, z3, z4, z5⟩ := inner_cells A s hz v0'' v1'' hZ
      obtain ⟨l, e1, e2, e3, e4⟩ := product_near A Prod.mk lx ly
      obtain ⟨k, g1, g2, g3, g4⟩ := product_near A (fun (ij : ℤ × ℤ) (n : ℤ) => (ij.1, ij.2, n)) l lz
      obtain ⟨l', f1, f2, f3, f4⟩ := times_near A id p.2 k
      have hX6 : 6 * u ≤ u * (xbins + 2) := by nlinarith
      have hY6 : 6 * u ≤ u * (ybins + 2) := by nlinarith
      have hZ6 : 6 * u ≤ u * (zbins + 2) := by nlinarith
      obtain ⟨b1, b2⟩ := bound2 hu hX6 hY6 hX hY x3 y3 x4 y4 (tot'_nonneg _) (tot'_nonneg _) e3 e4
      obtain ⟨c1, c2⟩ := bound3 hu hX6 hX hY hZ (by positivity) b1 b2 z3 z4 (tot'_nonneg _) (tot'_nonneg _) g3 g4
      have hw := abs_nonneg p.2
      refine ⟨l', ?_, ?_, ?_, ?_, ?_⟩
      · rw [← f1, ← g1, ← e1, x1, y1, z1, List.map_flatMap, List.flatMap_assoc]
        simp only [List.flatMap_map, List.map_map]
        rfl
      · have : ∀ i ∈ l'.map Prod.fst, (inRange (xbins + 2 * supp s) i.1 &&
            (inRange (ybins + 2 * supp s) i.2.1 && inRange (zbins + 2 * supp s) i.2.2)) = true ∧
            ((supp s : ℤ) ≤ i.1 ∧ i.1 < supp s + xbins) ∧ ((supp s : ℤ) ≤ i.2.1 ∧ i.2.1 < supp s + ybins) ∧
            (supp s : ℤ) ≤ i.2.2 ∧ i.2.2 < supp s + zbins := by
          intro i hi
          rw [f2, show (k.map fun c => id c.1) = k.map Prod.fst from rfl, g2] at hi
          obtain ⟨c, hc, hi⟩ := List.mem_flatMap.1 hi
          obtain ⟨d, hd, rfl⟩ := List.mem_map.1 hi
          have hc' : c.1 ∈ l.map Prod.fst := List.mem_map_of_mem hc
          rw [e2] at hc'
          obtain ⟨a, ha, hc'⟩ := List.mem_flatMap.1 hc'
          obtain ⟨b, hb, hc'⟩ := List.mem_map.1 hc'
          rw [← hc']
          obtain ⟨i0, i1⟩ := x2 a ha
          obtain ⟨j0, j1⟩ := y2 b hb
          obtain ⟨k0, k1⟩ := z2 d hd
          refine ⟨?_, ⟨i0, i1⟩, ⟨j0, j1⟩, k0, k1⟩
          simp only [inRange, Bool.and_eq_true, decide_eq_true_eq]
          push_cast
          omega
        intro c hc
        exact this c.1 (List.mem_map_of_mem hc)
      · have k1 : |tot k * p.2 - p.2| ≤ (185 * (u * (xbins + 2)) + 176 * (u * (ybins + 2)) + 168 * (u * (zbins + 2)) + 588 * u) * |p.2| := by
          rw [show tot k * p.2 - p.2 = (tot k - 1) * p.2 by ring, abs_mul]
          exact mul_le_mul_of_nonneg_right c1 hw
        have k2 : u * tot' k * |p.2| ≤ 521 * u * |p.2| := by
          apply mul_le_mul_of_nonneg_right _ hw
          nlinarith
        have := abs_add_le (tot l' - tot k * p.2) (tot k * p.2 - p.2)
        rw [sub_add_sub_cancel] at this
        have k3 : (185 * (u * (xbins + 2)) + 176 * (u * (ybins + 2)) + 168 * (u * (zbins + 2)) + 588 * u + 521 * u) * |p.2| ≤
            250 * (xbins + ybins + zbins + 6) * u * |p.2| := by
          apply mul_le_mul_of_nonneg_right _ hw
          calc _ ≤ 250 * (u * (xbins + 2) + u * (ybins + 2) + u * (zbins + 2)) := by linarith
            _ = _ := by ring
        linarith
      · have hu1 : u ≤ 1 / 4096 := by linarith
        have : (1 + u) * tot' k ≤ 521 := by nlinarith [tot'_nonneg k]
        exact le_trans f4 (mul_le_mul_of_nonneg_right this hw)
      · have h1 := congrArg List.length f2
        have h2 := congrArg List.length e2
        have h3 := congrArg List.length g2
        simp only [List.length_map, List.length_flatMap, List.map_const', List.sum_replicate, smul_eq_mul] at h1 h2 h3
        rw [h1, h3, h2]
        calc lx.length * ly.length * lz.length ≤ 4 * 4 * 4 := Nat.mul_le_mul (Nat.mul_le_mul x5 y5) z5
          _ = 64 := rfl)
  refine ⟨(List.range xbins).map fun i : ℕ => (List.range ybins).map fun j : ℕ => (List.range zbins).map fun k : ℕ =>
    m ((supp s : ℤ) + i, (supp s : ℤ) + j, (supp s : ℤ) + k), ?_, by simp, ?_, ?_⟩
  · have hloop : loopF rnd (fun ij : ℤ × ℤ × ℤ => inRange (xbins + 2 * supp s) ij.1 &&
          (inRange (ybins + 2 * supp s) ij.2.1 && inRange (zbins + 2 * supp s) ij.2.2))
        (actF3 rnd s xbins ybins zbins (fixRangeF rnd spacing rx).1 dx (fixRangeF rnd spacing ry).1 dy (fixRangeF rnd spacing rz).1 dz
          (some (ps.map fun p => .fin p.2))) (ps.map Prod.fst).zipIdx = .ok fun i => .fin (m i) := by
      rw [← m1]
      apply loopF_particles
      intro i p hp
      unfold actF3
      simp only [weightAtF, List.getElem?_map, hp, Option.map_some]
      rfl
    unfold histogram3dF
    have hzip : (ps.map fun p => p.1.1).zip ((ps.map fun p => p.1.2.1).zip (ps.map fun p => p.1.2.2)) = ps.map Prod.fst := by
      rw [List.zip_map', List.zip_map']
    simp only [List.length_map, ne_eq, not_true_eq_false, if_false, hzip, hdx, hdy, hdz, hloop, bind, Except.bind, pure, Except.pure]
    rw [List.map_map]
    simp only [Function.comp_def, List.map_map]
  · intro plane hplane
    obtain ⟨i, _, rfl⟩ := List.mem_map.1 hplane
    refine ⟨by simp, ?_⟩
    intro row hrow
    obtain ⟨j, _, rfl⟩ := List.mem_map.1 hrow
    simp
  · have s1 := sum_near (n := xbins) (fun i : ℕ => ((List.range ybins).map fun j : ℕ => ((List.range zbins).map fun k : ℕ =>
        m ((supp s : ℤ) + i, (supp s : ℤ) + j, (supp s : ℤ) + k)).sum).sum)
      (fun i : ℕ => ((List.range ybins).map fun j : ℕ => ((List.range zbins).map fun k : ℕ =>
        ((valuesAt ((supp s : ℤ) + (i : ℤ), (supp s : ℤ) + (j : ℤ), (supp s : ℤ) + (k : ℤ)) l).map id).sum).sum).sum)
      (fun i : ℕ => ((1 + u) ^ (64 * ps.length) - 1) *
        ((List.range ybins).map fun j : ℕ => ((List.range zbins).map fun k : ℕ =>
        ((valuesAt ((supp s : ℤ) + (i : ℤ), (supp s : ℤ) + (j : ℤ), (supp s : ℤ) + (k : ℤ)) l).map abs).sum).sum).sum)
      (fun i _ => by
        have := sum_near (n := ybins) (fun j : ℕ => ((List.range zbins).map fun k : ℕ => m ((supp s : ℤ) + i, (supp s : ℤ) + j, (supp s : ℤ) + k)).sum)
          (fun j : ℕ => ((List.range zbins).map fun k : ℕ =>
            ((valuesAt ((supp s : ℤ) + (i : ℤ), (supp s : ℤ) + (j : ℤ), (supp s : ℤ) + (k : ℤ)) l).map id).sum).sum)
          (fun j : ℕ => ((1 + u) ^ (64 * ps.length) - 1) * ((List.range zbins).map fun k : ℕ =>
            ((valuesAt ((supp s : ℤ) + (i : ℤ), (supp s : ℤ) + (j : ℤ), (supp s : ℤ) + (k : ℤ)) l).map abs).sum).sum)
          (fun j _ => by
            have := sum_near (n := zbins) (fun k : ℕ => m ((supp s : ℤ) + i, (supp s : ℤ) + j, (supp s : ℤ) + k))
              (fun k : ℕ => ((valuesAt ((supp s : ℤ) + (i : ℤ), (supp s : ℤ) + (j : ℤ), (supp s : ℤ) + (k : ℤ)) l).map id).sum)
              (fun k : ℕ => ((1 + u) ^ (64 * ps.length) - 1) *
                ((valuesAt ((supp s : ℤ) + (i : ℤ), (supp s : ℤ) + (j : ℤ), (supp s : ℤ) + (k : ℤ)) l).map abs).sum)
              (fun k _ => by simpa using m3 _)
            rwa [List.sum_map_mul_left] at this)
        rwa [List.sum_map_mul_left] at this)
    rw [sum_valuesAt3 id _ m2, List.sum_map_mul_left, sum_valuesAt3 abs _ m2] at s1
    refine combine (one_le_pow₀ (by linarith)) m4 m5 ?_
    rw [List.map_map]
    simp only [Function.comp_def, List.map_map]
    exact s1

end

/-! ### Examples -/

example : ∃ h : List (List ℚ), histogram2dF binary53 (fun _ => .fin (1 / 2 ^ 49)) .spline3 [.fin (1 / 3), .fin (5 / 7)]
    [.fin 2, .fin (5 / 2)] (.fin 0, .fin 1) (.fin 0, .fin 4) 10 7 (some [.fin (1 / 10), .fin (-7)]) =
      .ok (h.map fun row => row.map Dbl.fin) ∧ |(h.map List.sum).sum - (1 / 10 + (-7 + 0))| ≤ 1 / 10 ^ 11 := by
  obtain ⟨h, h1, _, _, h3⟩ := histogram2d_conserved_rounded binary53 (1 / 2 ^ 52) binary53_accurate (fun _ => .fin (1 / 2 ^ 49)) .spline3
    [((.fin (1 / 3), .fin 2), 1 / 10), ((.fin (5 / 7), .fin (5 / 2)), -7)] (.fin 0, .fin 1) (.fin 0, .fin 4) 10 7
    (by norm_num) (by norm_num) (by norm_num) (by norm_num) (.fin 10) (.fin (7 / 4)) (by decide +kernel) (by decide +kernel)
    (by unfold inside; decide +kernel)
  refine ⟨h, h1, le_trans h3 ?_⟩
  decide +kernel

example : ∃ h : List (List (List ℚ)), histogram3dF binary53 (fun _ => .fin (1 / 2 ^ 49)) .tophat [.fin (1 / 3), .fin (5 / 7)]
    [.fin 2, .fin (5 / 2)] [.fin 3, .fin 4] (.fin 0, .fin 1) (.fin 0, .fin 4) (.fin 0, .fin 8) 10 7 8 (some [.fin (1 / 10), .fin (-7)]) =
      .ok (h.map fun plane => plane.map fun row => row.map Dbl.fin) ∧
      |(h.map fun plane => (plane.map List.sum).sum).sum - (1 / 10 + (-7 + 0))| ≤ 1 / 10 ^ 9 := by
  obtain ⟨h, h1, _, _, h3⟩ := histogram3d_conserved_rounded binary53 (1 / 2 ^ 52) binary53_accurate (fun _ => .fin (1 / 2 ^ 49)) .tophat
    [((.fin (1 / 3), .fin 2, .fin 3), 1 / 10), ((.fin (5 / 7), .fin (5 / 2), .fin 4), -7)] (.fin 0, .fin 1) (.fin 0, .fin 4) (.fin 0, .fin 8)
    10 7 8 (by norm_num) (by norm_num) (by norm_num) (by norm_num) (by norm_num) (by norm_num) (.fin 10) (.fin (7 / 4)) (.fin 1)
    (by decide +kernel) (by decide +kernel) (by decide +kernel) (by unfold inside; decide +kernel)
  refine ⟨h, h1, le_trans h3 ?_⟩
  decide +kernel

end Postpic.Props
