import Verif.Lemmas.HistogramWeights
import Verif.Props.HistogramEdge

/-!
# C131: weights in histograms with rounding
-/

set_option autoImplicit false
set_option linter.unusedSectionVars false

namespace Postpic.Props

open Postpic Postpic.Spec Postpic.Histogram

section
variable {K : Type} [_root_.Field K] [LinearOrder K] [IsStrictOrderedRing K] [FloorRing K]

/-- C131: a bin of a histogram of order 0 contains the weights of the particles whose computed position is inside, added one after the other in
the order of the particles. Weights may be infinite or NaN: they do not affect the other bins. -/
theorem histogram_weights (rnd : K → Dbl K) (hr : Rounding rnd) (spacing : Dbl K → Dbl K) (ps : List (Dbl K × Dbl K))
    (hw : ∀ p ∈ ps, Dbl.mul rnd (.fin 1) p.2 = p.2) (range : Dbl K × Dbl K) (bins : ℕ) (hb : bins ≤ 2 ^ 31) (dx : Dbl K)
    (hdx : invSpacingF rnd (fixRangeF rnd spacing range) bins = .ok dx) :
    histogramF rnd spacing .ngp (ps.map Prod.fst) range bins (some (ps.map Prod.snd)) = .ok ((List.range bins).map fun i =>
      ((ps.filter fun p => inBin i (computed rnd (fixRangeF rnd spacing range).1 dx p.1)).map Prod.snd).foldl (Dbl.add rnd) (.fin 0)) := by
  let X : Dbl K → Dbl K := computed rnd (fixRangeF rnd spacing range).1 dx
  obtain ⟨m, h1, h2⟩ := loopF_weights (rnd := rnd) (inRange (bins + 2 * supp .ngp))
    (fun p : (Dbl K × Dbl K) × ℕ => actF1 rnd .ngp bins (fixRangeF rnd spacing range).1 dx (some (ps.map Prod.snd)) (p.1.1, p.2))
    (fun p => if guardF1 rnd .ngp bins (X p.1.1) = true then some (X p.1.1).cast else none) (fun p => p.1.2) ps.zipIdx (by
      intro p hp
      have hi := List.mem_zipIdx_iff_getElem?.1 hp
      unfold actF1
      simp only [show Dbl.mul rnd (Dbl.sub rnd p.1.1 (fixRangeF rnd spacing range).1) dx = X p.1.1 from rfl]
      by_cases hg : guardF1 rnd .ngp bins (X p.1.1) = true
      · have hw' := hw p.1 (List.mem_of_getElem? hi)
        simp only [if_pos hg, (ngp_cells hr _).1, weightAtF, List.getElem?_map, hi, Option.map_some, bind, Except.bind, List.map_cons,
          List.map_nil, hw']
        rfl
      · simp only [if_neg hg]
        rfl) (by
      intro p _ i hi
      by_cases hg : guardF1 rnd .ngp bins (X p.1.1) = true
      · rw [if_pos hg] at hi
        obtain ⟨g0, g1, g2⟩ := guardF1_ref hb hg
        have := cellsF_inRange (rnd := rnd) (c := ((X p.1.1).cast, Dbl.fin 1)) g0 g1 g2 (by rw [(ngp_cells hr _).1]; simp)
        rw [← Option.some.inj hi]
        exact this
      · rw [if_neg hg] at hi
        cases hi)
  have hz : (ps.map Prod.fst).zipIdx = ps.zipIdx.map fun p => (p.1.1, p.2) := by
    rw [List.zipIdx_map]
    rfl
  unfold histogramF
  simp only [hdx, hz, loopF_map, h1, bind, Except.bind]
  refine congrArg Except.ok (List.map_congr_left fun i hi => ?_)
  rw [h2]
  congr 1
  rw [show (fun p : (Dbl K × Dbl K) × ℕ => p.1.2) = Prod.snd ∘ Prod.fst from rfl, ← List.map_map]
  congr 1
  conv_rhs => rw [← List.zipIdx_map_fst 0 ps, List.filter_map]
  congr 1
  refine List.filter_congr fun p _ => ?_
  have key := inBin_iff (rnd := rnd) hb (List.mem_range.1 hi) (X p.1.1)
  rw [Bool.eq_iff_iff, decide_eq_true_eq, Function.comp_apply, ← key]
  by_cases hg : guardF1 rnd .ngp bins (X p.1.1) = true
  · simp [hg, supp]
  · simp [hg]

/-- C131: the same in two dimensions. -/
theorem histogram2d_weights (rnd : K → Dbl K) (hr : Rounding rnd) (spacing : Dbl K → Dbl K) (ps : List ((Dbl K × Dbl K) × Dbl K))
    (hw : ∀ p ∈ ps, Dbl.mul rnd (.fin 1) p.2 = p.2) (rangex rangey : Dbl K × Dbl K) (xb yb : ℕ) (hxb : xb ≤ 2 ^ 31) (hyb : yb ≤ 2 ^ 31)
    (dx dy : Dbl K) (hdx : invSpacingF rnd (fixRangeF rnd spacing rangex) xb = .ok dx)
    (hdy : invSpacingF rnd (fixRangeF rnd spacing rangey) yb = .ok dy) :
    histogram2dF rnd spacing .ngp (ps.map fun p => p.1.1) (ps.map fun p => p.1.2) rangex rangey xb yb (some (ps.map Prod.snd)) =
      .ok ((List.range xb).map fun i => (List.range yb).map fun j =>
        ((ps.filter fun p => inBin i (computed rnd (fixRangeF rnd spacing rangex).1 dx p.1.1) &&
          inBin j (computed rnd (fixRangeF rnd spacing rangey).1 dy p.1.2)).map Prod.snd).foldl (Dbl.add rnd) (.fin 0)) := by
  let X : Dbl K → Dbl K := computed rnd (fixRangeF rnd spacing rangex).1 dx
  let Y : Dbl K → Dbl K := computed rnd (fixRangeF rnd spacing rangey).1 dy
  have hg2 : ∀ x y : Dbl K, guardF2 rnd .ngp xb yb x y = (guardF1 rnd .ngp xb x && guardF1 rnd .ngp yb y) := by
    intro x y
    simp only [guardF2, guardF1]
    cases (Dbl.fin 0).lt x <;> cases (Dbl.fin 0).lt y <;> simp
  obtain ⟨m, h1, h2⟩ := loopF_weights (rnd := rnd)
    (fun ij : ℤ × ℤ => inRange (xb + 2 * supp .ngp) ij.1 && inRange (yb + 2 * supp .ngp) ij.2)
    (fun p : ((Dbl K × Dbl K) × Dbl K) × ℕ => actF2 rnd .ngp xb yb (fixRangeF rnd spacing rangex).1 dx (fixRangeF rnd spacing rangey).1 dy
      (some (ps.map Prod.snd)) (p.1.1, p.2))
    (fun p => if guardF2 rnd .ngp xb yb (X p.1.1.1) (Y p.1.1.2) = true then some ((X p.1.1.1).cast, (Y p.1.1.2).cast) else none)
    (fun p => p.1.2) ps.zipIdx (by
      intro p hp
      have hi := List.mem_zipIdx_iff_getElem?.1 hp
      unfold actF2
      simp only [show Dbl.mul rnd (Dbl.sub rnd p.1.1.1 (fixRangeF rnd spacing rangex).1) dx = X p.1.1.1 from rfl,
        show Dbl.mul rnd (Dbl.sub rnd p.1.1.2 (fixRangeF rnd spacing rangey).1) dy = Y p.1.1.2 from rfl]
      by_cases hg : guardF2 rnd .ngp xb yb (X p.1.1.1) (Y p.1.1.2) = true
      · have hw' := hw p.1 (List.mem_of_getElem? hi)
        simp only [if_pos hg, (ngp_cells hr _).1, weightAtF, List.getElem?_map, hi, Option.map_some, bind, Except.bind, List.map_cons,
          List.map_nil, List.flatMap_cons, List.flatMap_nil, (ngp_cells hr .nan).2, hw']
        rfl
      · simp only [if_neg hg]
        rfl) (by
      intro p _ i hi
      by_cases hg : guardF2 rnd .ngp xb yb (X p.1.1.1) (Y p.1.1.2) = true
      · rw [if_pos hg] at hi
        rw [hg2, Bool.and_eq_true] at hg
        obtain ⟨g0, g1, g2⟩ := guardF1_ref hxb hg.1
        obtain ⟨k0, k1, k2⟩ := guardF1_ref hyb hg.2
        have hX := cellsF_inRange (rnd := rnd) (c := ((X p.1.1.1).cast, Dbl.fin 1)) g0 g1 g2 (by rw [(ngp_cells hr _).1]; simp)
        have hY := cellsF_inRange (rnd := rnd) (c := ((Y p.1.1.2).cast, Dbl.fin 1)) k0 k1 k2 (by rw [(ngp_cells hr _).1]; simp)
        rw [← Option.some.inj hi]
        simp only [hX, hY, Bool.and_self]
      · rw [if_neg hg] at hi
        cases hi)
  have hz : ((ps.map fun p => p.1.1).zip (ps.map fun p => p.1.2)).zipIdx = ps.zipIdx.map fun p => (p.1.1, p.2) := by
    rw [List.zip_map', List.zipIdx_map]
    rfl
  unfold histogram2dF
  simp only [List.length_map, ne_eq, not_true_eq_false, if_false, hdx, hdy, hz, loopF_map, h1, bind, Except.bind]
  refine congrArg Except.ok (List.map_congr_left fun i hi => List.map_congr_left fun j hj => ?_)
  rw [h2]
  congr 1
  rw [show (fun p : ((Dbl K × Dbl K) × Dbl K) × ℕ => p.1.2) = Prod.snd ∘ Prod.fst from rfl, ← List.map_map]
  congr 1
  conv_rhs => rw [← List.zipIdx_map_fst 0 ps, List.filter_map]
  congr 1
  refine List.filter_congr fun p _ => ?_
  have keyx := inBin_iff (rnd := rnd) hxb (List.mem_range.1 hi) (X p.1.1.1)
  have keyy := inBin_iff (rnd := rnd) hyb (List.mem_range.1 hj) (Y p.1.1.2)
  rw [Bool.eq_iff_iff, decide_eq_true_eq, Function.comp_apply, Bool.and_eq_true, ← keyx, ← keyy, hg2]
  cases hx : guardF1 rnd .ngp xb (X p.1.1.1) <;> cases hy : guardF1 rnd .ngp yb (Y p.1.1.2) <;> simp [supp]

/-- C131: the same in three dimensions. -/
theorem histogram3d_weights (rnd : K → Dbl K) (hr : Rounding rnd) (spacing : Dbl K → Dbl K) (ps : List ((Dbl K × Dbl K × Dbl K) × Dbl K))
    (hw : ∀ p ∈ ps, Dbl.mul rnd (.fin 1) p.2 = p.2) (rangex rangey rangez : Dbl K × Dbl K) (xb yb zb : ℕ) (hxb : xb ≤ 2 ^ 31)
    (hyb : yb ≤ 2 ^ 31) (hzb : zb ≤ 2 ^ 31) (dx dy dz : Dbl K) (hdx : invSpacingF rnd (fixRangeF rnd spacing rangex) xb = .ok dx)
    (hdy : invSpacingF rnd (fixRangeF rnd spacing rangey) yb = .ok dy) (hdz : invSpacingF rnd (fixRangeF rnd spacing rangez) zb = .ok dz) :
    histogram3dF rnd spacing .ngp (ps.map fun p => p.1.1) (ps.map fun p => p.1.2.1) (ps.map fun p => p.1.2.2) rangex rangey rangez xb yb zb
        (some (ps.map Prod.snd)) =
      .ok ((List.range xb).map fun i => (List.range yb).map fun j => (List.range zb).map fun k =>
        ((ps.filter fun p => inBin i (computed rnd (fixRangeF rnd spacing rangex).1 dx p.1.1) &&
          (inBin j (computed rnd (fixRangeF rnd spacing rangey).1 dy p.1.2.1) &&
            inBin k (computed rnd (fixRangeF rnd spacing rangez).1 dz p.1.2.2))).map Prod.snd).foldl (Dbl.add rnd) (.fin 0)) := by
  let X : Dbl K → Dbl K := computed rnd (fixRangeF rnd spacing rangex).1 dx
  let Y : Dbl K → Dbl K := computed rnd (fixRangeF rnd spacing rangey).1 dy
  let Z : Dbl K → Dbl K := computed rnd (fixRangeF rnd spacing rangez).1 dz
  have hg3 : ∀ x y z : Dbl K, guardF3 rnd .ngp xb yb zb x y z =
      (guardF1 rnd .ngp xb x && (guardF1 rnd .ngp yb y && guardF1 rnd .ngp zb z)) := by
    intro x y z
    simp only [guardF3, guardF1]
    cases (Dbl.fin 0).lt x <;> cases (Dbl.fin 0).lt y <;> cases (Dbl.fin 0).lt z <;> simp [Bool.and_assoc]
  obtain ⟨m, h1, h2⟩ := loopF_weights (rnd := rnd)
    (fun ij : ℤ × ℤ × ℤ => inRange (xb + 2 * supp .ngp) ij.1 && (inRange (yb + 2 * supp .ngp) ij.2.1 && inRange (zb + 2 * supp .ngp) ij.2.2))
    (fun p : ((Dbl K × Dbl K × Dbl K) × Dbl K) × ℕ => actF3 rnd .ngp xb yb zb (fixRangeF rnd spacing rangex).1 dx
      (fixRangeF rnd spacing rangey).1 dy (fixRangeF rnd spacing rangez).1 dz (some (ps.map Prod.snd)) (p.1.1, p.2))
    (fun p => if guardF3 rnd .ngp xb yb zb (X p.1.1.1) (Y p.1.1.2.1) (Z p.1.1.2.2) = true then
      some ((X p.1.1.1).cast, (Y p.1.1.2.1).cast, (Z p.1.1.2.2).cast) else none)
    (fun p => p.1.2) ps.zipIdx (by
      intro p hp
      have hi := List.mem_zipIdx_iff_getElem?.1 hp
      unfold actF3
      simp only [show Dbl.mul rnd (Dbl.sub rnd p.1.1.1 (fixRangeF rnd spacing rangex).1) dx = X p.1.1.1 from rfl,
        show Dbl.mul rnd (Dbl.sub rnd p.1.1.2.1 (fixRangeF rnd spacing rangey).1) dy = Y p.1.1.2.1 from rfl,
        show Dbl.mul rnd (Dbl.sub rnd p.1.1.2.2 (fixRangeF rnd spacing rangez).1) dz = Z p.1.1.2.2 from rfl]
      by_cases hg : guardF3 rnd .ngp xb yb zb (X p.1.1.1) (Y p.1.1.2.1) (Z p.1.1.2.2) = true
      · have hw' := hw p.1 (List.mem_of_getElem? hi)
        simp only [if_pos hg, (ngp_cells hr _).1, weightAtF, List.getElem?_map, hi, Option.map_some, bind, Except.bind, List.map_cons,
          List.map_nil, List.flatMap_cons, List.flatMap_nil, (ngp_cells hr .nan).2, hw']
        rfl
      · simp only [if_neg hg]
        rfl) (by
      intro p _ i hi
      by_cases hg : guardF3 rnd .ngp xb yb zb (X p.1.1.1) (Y p.1.1.2.1) (Z p.1.1.2.2) = true
      · rw [if_pos hg] at hi
        rw [hg3, Bool.and_eq_true, Bool.and_eq_true] at hg
        obtain ⟨g0, g1, g2⟩ := guardF1_ref hxb hg.1
        obtain ⟨k0, k1, k2⟩ := guardF1_ref hyb hg.2.1
        obtain ⟨l0, l1, l2⟩ := guardF1_ref hzb hg.2.2
        have hX := cellsF_inRange (rnd := rnd) (c := ((X p.1.1.1).cast, Dbl.fin 1)) g0 g1 g2 (by rw [(ngp_cells hr _).1]; simp)
        have hY := cellsF_inRange (rnd := rnd) (c := ((Y p.1.1.2.1).cast, Dbl.fin 1)) k0 k1 k2 (by rw [(ngp_cells hr _).1]; simp)
        have hZ := cellsF_inRange (rnd := rnd) (c := ((Z p.1.1.2.2).cast, Dbl.fin 1)) l0 l1 l2 (by rw [(ngp_cells hr _).1]; simp)
        rw [← Option.some.inj hi]
        simp only [hX, hY, hZ, Bool.and_self]
      · rw [if_neg hg] at hi
        cases hi)
  have hz : ((ps.map fun p => p.1.1).zip ((ps.map fun p => p.1.2.1).zip (ps.map fun p => p.1.2.2))).zipIdx =
      ps.zipIdx.map fun p => (p.1.1, p.2) := by
    rw [List.zip_map', List.zip_map', List.zipIdx_map]
    rfl
  unfold histogram3dF
  simp only [List.length_map, ne_eq, not_true_eq_false, if_false, hdx, hdy, hdz, hz, loopF_map, h1, bind, Except.bind]
  refine congrArg Except.ok (List.map_congr_left fun i hi => List.map_congr_left fun j hj => List.map_congr_left fun k hk => ?_)
  rw [h2]
  congr 1
  rw [show (fun p : ((Dbl K × Dbl K × Dbl K) × Dbl K) × ℕ => p.1.2) = Prod.snd ∘ Prod.fst from rfl, ← List.map_map]
  congr 1
  conv_rhs => rw [← List.zipIdx_map_fst 0 ps, List.filter_map]
  congr 1
  refine List.filter_congr fun p _ => ?_
  have keyx := inBin_iff (rnd := rnd) hxb (List.mem_range.1 hi) (X p.1.1.1)
  have keyy := inBin_iff (rnd := rnd) hyb (List.mem_range.1 hj) (Y p.1.1.2.1)
  have keyz := inBin_iff (rnd := rnd) hzb (List.mem_range.1 hk) (Z p.1.1.2.2)
  rw [Bool.eq_iff_iff, decide_eq_true_eq, Function.comp_apply, Bool.and_eq_true, Bool.and_eq_true, ← keyx, ← keyy, ← keyz, hg3]
  cases hx : guardF1 rnd .ngp xb (X p.1.1.1) <;> cases hy : guardF1 rnd .ngp yb (Y p.1.1.2.1) <;>
    cases hz : guardF1 rnd .ngp zb (Z p.1.1.2.2) <;> simp [supp]

end

/-! ### Doubles -/

/-- The weights of the chosen particles are added with small errors. -/
theorem foldl_filter_double {α : Type} (ps : List (α × ℚ)) (hw : ∀ p ∈ ps, double p.2 = .fin p.2) (hn : ps.length ≤ 2 ^ 52)
    (hs : (ps.map fun p => |p.2|).sum < 2 ^ 1022) (sel : α → Bool) :
    ∃ y, (((ps.map fun p => (p.1, Dbl.fin p.2)).filter fun p => sel p.1).map Prod.snd).foldl (Dbl.add double) (.fin 0) = .fin y ∧
      |y - ((ps.filter fun p => sel p.1).map Prod.snd).sum| ≤ ps.length / 2 ^ 52 * ((ps.filter fun p => sel p.1).map fun p => |p.2|).sum := by
  have e : ((ps.map fun p => (p.1, Dbl.fin p.2)).filter fun p => sel p.1).map Prod.snd =
      ((ps.filter fun p => sel p.1).map Prod.snd).map Dbl.fin := by
    rw [List.filter_map, List.map_map, List.map_map]
    rfl
  have hpos : ∀ l : List (α × ℚ), 0 ≤ (l.map fun p => |p.2|).sum := by
    intro l
    refine List.sum_nonneg ?_
    intro a ha
    obtain ⟨p, -, rfl⟩ := List.mem_map.1 ha
    exact abs_nonneg _
  have hle : ∀ l : List (α × ℚ), ((l.filter fun p => sel p.1).map fun p => |p.2|).sum ≤ (l.map fun p => |p.2|).sum := by
    intro l
    induction l with
    | nil => exact le_refl _
    | cons p l ih =>
      rw [List.filter_cons, List.map_cons, List.sum_cons]
      have := abs_nonneg p.2
      split_ifs
      · rw [List.map_cons, List.sum_cons]
        exact add_le_add_right ih _
      · linarith
  have hlen : (ps.filter fun p => sel p.1).length ≤ ps.length := List.length_filter_le _ _
  obtain ⟨y, y1, -, y3⟩ := foldl_double (xs := (ps.filter fun p => sel p.1).map Prod.snd) (by
    intro x hx
    obtain ⟨p, hp, rfl⟩ := List.mem_map.1 hx
    exact hw p (List.mem_of_mem_filter hp)) (by
    rw [List.length_map]
    exact hlen.trans hn) (by
    rw [List.map_map]
    exact lt_of_le_of_lt (hle ps) hs)
  refine ⟨y, by rw [e, y1], ?_⟩
  rw [List.map_map, List.length_map] at y3
  refine y3.trans (mul_le_mul_of_nonneg_right ?_ (hpos _))
  exact div_le_div_of_nonneg_right (by exact_mod_cast hlen) (pow_nonneg (by norm_num) 52)

theorem double_one_mul {w : ℚ} (h : double w = .fin w) : Dbl.mul double (.fin 1) (.fin w) = .fin w := by
  simp only [Dbl.mul, one_mul]
  exact h

/-- C131: with doubles, a bin of a weighted histogram of order 0 contains the sum of the weights of the particles whose computed position is
inside, up to rounding, unless the weights add up to numbers near the largest double. Very small weights are no exception. -/
theorem histogram_weights_double (spacing : Dbl ℚ → Dbl ℚ) (ps : List (Dbl ℚ × ℚ)) (hw : ∀ p ∈ ps, double p.2 = .fin p.2)
    (hn : ps.length ≤ 2 ^ 52) (hs : (ps.map fun p => |p.2|).sum < 2 ^ 1022) (range : Dbl ℚ × Dbl ℚ) (bins : ℕ) (hb : bins ≤ 2 ^ 31) (dx : Dbl ℚ)
    (hdx : invSpacingF double (fixRangeF double spacing range) bins = .ok dx) :
    ∃ y : ℕ → ℚ, histogramF double spacing .ngp (ps.map Prod.fst) range bins (some (ps.map fun p => .fin p.2)) =
        .ok ((List.range bins).map fun i => .fin (y i)) ∧
      ∀ i, |y i - ((ps.filter fun p => inBin i (computed double (fixRangeF double spacing range).1 dx p.1)).map Prod.snd).sum| ≤
        ps.length / 2 ^ 52 * ((ps.filter fun p => inBin i (computed double (fixRangeF double spacing range).1 dx p.1)).map fun p => |p.2|).sum := by
  have key := fun i => foldl_filter_double ps hw hn hs fun d => inBin i (computed double (fixRangeF double spacing range).1 dx d)
  choose y y1 y2 using key
  refine ⟨y, ?_, y2⟩
  have h := histogram_weights double double_rounding spacing (ps.map fun p => (p.1, Dbl.fin p.2)) (by
    intro p hp
    obtain ⟨q, hq, rfl⟩ := List.mem_map.1 hp
    exact double_one_mul (hw q hq)) range bins hb dx hdx
  rw [List.map_map, List.map_map] at h
  refine h.trans (congrArg Except.ok (List.map_congr_left fun i _ => y1 i))

/-- C131: the same in two dimensions. -/
theorem histogram2d_weights_double (spacing : Dbl ℚ → Dbl ℚ) (ps : List ((Dbl ℚ × Dbl ℚ) × ℚ)) (hw : ∀ p ∈ ps, double p.2 = .fin p.2)
    (hn : ps.length ≤ 2 ^ 52) (hs : (ps.map fun p => |p.2|).sum < 2 ^ 1022) (rangex rangey : Dbl ℚ × Dbl ℚ) (xb yb : ℕ) (hxb : xb ≤ 2 ^ 31)
    (hyb : yb ≤ 2 ^ 31) (dx dy : Dbl ℚ) (hdx : invSpacingF double (fixRangeF double spacing rangex) xb = .ok dx)
    (hdy : invSpacingF double (fixRangeF double spacing rangey) yb = .ok dy) :
    ∃ v : ℕ → ℕ → ℚ, histogram2dF double spacing .ngp (ps.map fun p => p.1.1) (ps.map fun p => p.1.2) rangex rangey xb yb
        (some (ps.map fun p => .fin p.2)) = .ok ((List.range xb).map fun i => (List.range yb).map fun j => .fin (v i j)) ∧
      ∀ i j, |v i j - ((ps.filter fun p => inBin i (computed double (fixRangeF double spacing rangex).1 dx p.1.1) &&
          inBin j (computed double (fixRangeF double spacing rangey).1 dy p.1.2)).map Prod.snd).sum| ≤
        ps.length / 2 ^ 52 * ((ps.filter fun p => inBin i (computed double (fixRangeF double spacing rangex).1 dx p.1.1) &&
          inBin j (computed double (fixRangeF double spacing rangey).1 dy p.1.2)).map fun p => |p.2|).sum := by
  have key := fun i j => foldl_filter_double ps hw hn hs fun d => inBin i (computed double (fixRangeF double spacing rangex).1 dx d.1) &&
    inBin j (computed double (fixRangeF double spacing rangey).1 dy d.2)
  choose y y1 y2 using key
  refine ⟨y, ?_, y2⟩
  have h := histogram2d_weights double double_rounding spacing (ps.map fun p => (p.1, Dbl.fin p.2)) (by
    intro p hp
    obtain ⟨q, hq, rfl⟩ := List.mem_map.1 hp
    exact double_one_mul (hw q hq)) rangex rangey xb yb hxb hyb dx dy hdx hdy
  rw [List.map_map, List.map_map, List.map_map] at h
  exact h.trans (congrArg Except.ok (List.map_congr_left fun i _ => List.map_congr_left fun j _ => y1 i j))

/-- C131: the same in three dimensions. -/
theorem histogram3d_weights_double (spacing : Dbl ℚ → Dbl ℚ) (ps : List ((Dbl ℚ × Dbl ℚ × Dbl ℚ) × ℚ)) (hw : ∀ p ∈ ps, double p.2 = .fin p.2)
    (hn : ps.length ≤ 2 ^ 52) (hs : (ps.map fun p => |p.2|).sum < 2 ^ 1022) (rangex rangey rangez : Dbl ℚ × Dbl ℚ) (xb yb zb : ℕ)
    (hxb : xb ≤ 2 ^ 31) (hyb : yb ≤ 2 ^ 31) (hzb : zb ≤ 2 ^ 31) (dx dy dz : Dbl ℚ)
    (hdx : invSpacingF double (fixRangeF double spacing rangex) xb = .ok dx)
    (hdy : invSpacingF double (fixRangeF double spacing rangey) yb = .ok dy)
    (hdz : invSpacingF double (fixRangeF double spacing rangez) zb = .ok dz) :
    ∃ v : ℕ → ℕ → ℕ → ℚ, histogram3dF double spacing .ngp (ps.map fun p => p.1.1) (ps.map fun p => p.1.2.1) (ps.map fun p => p.1.2.2)
        rangex rangey rangez xb yb zb (some (ps.map fun p => .fin p.2)) =
          .ok ((List.range xb).map fun i => (List.range yb).map fun j => (List.range zb).map fun k => .fin (v i j k)) ∧
      ∀ i j k, |v i j k - ((ps.filter fun p => inBin i (computed double (fixRangeF double spacing rangex).1 dx p.1.1) &&
          (inBin j (computed double (fixRangeF double spacing rangey).1 dy p.1.2.1) &&
            inBin k (computed double (fixRangeF double spacing rangez).1 dz p.1.2.2))).map Prod.snd).sum| ≤
        ps.length / 2 ^ 52 * ((ps.filter fun p => inBin i (computed double (fixRangeF double spacing rangex).1 dx p.1.1) &&
          (inBin j (computed double (fixRangeF double spacing rangey).1 dy p.1.2.1) &&
            inBin k (computed double (fixRangeF double spacing rangez).1 dz p.1.2.2))).map fun p => |p.2|).sum := by
  have key := fun i j k => foldl_filter_double ps hw hn hs fun d => inBin i (computed double (fixRangeF double spacing rangex).1 dx d.1) &&
    (inBin j (computed double (fixRangeF double spacing rangey).1 dy d.2.1) &&
      inBin k (computed double (fixRangeF double spacing rangez).1 dz d.2.2))
  choose y y1 y2 using key
  refine ⟨y, ?_, y2⟩
  have h := histogram3d_weights double double_rounding spacing (ps.map fun p => (p.1, Dbl.fin p.2)) (by
    intro p hp
    obtain ⟨q, hq, rfl⟩ := List.mem_map.1 hp
    exact double_one_mul (hw q hq)) rangex rangey rangez xb yb zb hxb hyb hzb dx dy dz hdx hdy hdz
  rw [List.map_map, List.map_map, List.map_map, List.map_map] at h
  exact h.trans (congrArg Except.ok (List.map_congr_left fun i _ => List.map_congr_left fun j _ => List.map_congr_left fun k _ => y1 i j k))

/-- All bins together. -/
theorem bins_total {α : Type} (x : α → Dbl ℚ) (g : α × ℚ → ℚ) (ps : List (α × ℚ)) (bins : ℕ) :
    ((List.range bins).map fun i => ((ps.filter fun p => inBin i (x p.1)).map g).sum).sum =
      ((ps.filter fun p => (Dbl.fin 0).lt (x p.1) && (x p.1).lt (.fin bins)).map g).sum := by
  have one : ∀ (d : Dbl ℚ) (v : ℚ), ((List.range bins).map fun i => if inBin i d then v else 0).sum =
      if (Dbl.fin 0).lt d && d.lt (.fin bins) then v else 0 := by
    intro d v
    cases d with
    | nan => simp [inBin, Dbl.lt]
    | inf s => cases s <;> simp [inBin, Dbl.lt]
    | fin y =>
      have h := sum_inBin y bins
      have h' := congrArg (fun n : ℕ => (n : ℚ) * v) h
      beta_reduce at h'
      rw [Nat.cast_list_sum, List.map_map, ← List.sum_map_mul_right] at h'
      have e1 : ((List.range bins).map fun i => if inBin i (Dbl.fin y) then v else 0) =
          (List.range bins).map fun i => ((Nat.cast ∘ fun i => if inBin i (Dbl.fin y) then (1 : ℕ) else 0) i : ℚ) * v := by
        refine List.map_congr_left fun i _ => ?_
        simp only [Function.comp_apply]
        split_ifs <;> simp
      rw [e1, h']
      simp only [Dbl.lt, Bool.and_eq_true, decide_eq_true_eq]
      split_ifs <;> simp
  induction ps with
  | nil => simp
  | cons p ps ih =>
    have e1 : ∀ q : Bool, ∀ l : List (α × ℚ), ((if q then p :: l else l).map g).sum = (if q then g p else 0) + (l.map g).sum := by
      intro q l
      cases q <;> simp
    simp only [List.filter_cons, e1]
    rw [List.sum_map_add, ih, one]

/-- C131: with doubles, the bins together contain the weights of all particles whose computed position is inside of the range, up to rounding. -/
theorem histogram_total_double (spacing : Dbl ℚ → Dbl ℚ) (ps : List (Dbl ℚ × ℚ)) (hw : ∀ p ∈ ps, double p.2 = .fin p.2)
    (hn : ps.length ≤ 2 ^ 52) (hs : (ps.map fun p => |p.2|).sum < 2 ^ 1022) (range : Dbl ℚ × Dbl ℚ) (bins : ℕ) (hb : bins ≤ 2 ^ 31) (dx : Dbl ℚ)
    (hdx : invSpacingF double (fixRangeF double spacing range) bins = .ok dx) :
    let inside : Dbl ℚ × ℚ → Bool := fun p => (Dbl.fin 0).lt (computed double (fixRangeF double spacing range).1 dx p.1) &&
      (computed double (fixRangeF double spacing range).1 dx p.1).lt (.fin bins)
    ∃ y : ℕ → ℚ, histogramF double spacing .ngp (ps.map Prod.fst) range bins (some (ps.map fun p => .fin p.2)) =
        .ok ((List.range bins).map fun i => .fin (y i)) ∧
      |((List.range bins).map y).sum - ((ps.filter inside).map Prod.snd).sum| ≤
        ps.length / 2 ^ 52 * ((ps.filter inside).map fun p => |p.2|).sum := by
  intro inside
  obtain ⟨y, h1, h2⟩ := histogram_weights_double spacing ps hw hn hs range bins hb dx hdx
  refine ⟨y, h1, ?_⟩
  have t1 := bins_total (computed double (fixRangeF double spacing range).1 dx) Prod.snd ps bins
  have t2 := bins_total (computed double (fixRangeF double spacing range).1 dx) (fun p => |p.2|) ps bins
  rw [← t1, ← t2, ← List.sum_map_mul_left]
  generalize List.range bins = l
  induction l with
  | nil => simp
  | cons i l ih =>
    simp only [List.map_cons, List.sum_cons]
    refine le_trans (le_of_eq (congrArg abs (add_sub_add_comm _ _ _ _))) ((abs_add_le _ _).trans (add_le_add (h2 i) ih))

/-- Weights below the smallest normal double are added exactly, a weight which is infinite stays in its bin. -/
example : histogramF double spacingDouble .ngp [.fin (1 / 2), .fin (3 / 2), .fin (1 / 4), .fin (5 / 2)] (.fin 0, .fin 3) 3
    (some [.fin (2 ^ (-1074 : ℤ)), .inf false, .fin (3 * 2 ^ (-1074 : ℤ)), .fin 7]) =
    .ok [.fin (2 ^ (-1072 : ℤ)), .inf false, .fin 7] := by decide +kernel

/-- Large weights overflow. -/
theorem histogram_weights_overflow :
    let w : ℚ := (2 ^ 53 - 1) * 2 ^ 971
    double w = .fin w ∧ histogramF double spacingDouble .ngp [.fin (1 / 2), .fin (1 / 4), .fin (1 / 8)] (.fin 0, .fin 3) 3
      (some [.fin w, .fin w, .fin (-w)]) = .ok [.inf false, .fin 0, .fin 0] := by decide +kernel

example := histogram_weights double double_rounding spacingDouble [(.fin (1 / 2), .fin 2), (.fin (1 / 3), .nan)] (by decide +kernel)
  (.fin 0, .fin 4) 4 (by norm_num) (.fin 1) (by decide +kernel)
example := histogram2d_weights double double_rounding spacingDouble [((.fin (1 / 2), .nan), .fin 2), ((.fin (1 / 3), .fin 2), .inf true)]
  (by decide +kernel) (.fin 0, .fin 4) (.fin 1, .fin 5) 4 4 (by norm_num) (by norm_num) (.fin 1) (.fin 1) (by decide +kernel) (by decide +kernel)
example := histogram3d_weights double double_rounding spacingDouble [((.fin (1 / 2), .fin 2, .fin 1), .fin 2)]
  (by decide +kernel) (.fin 0, .fin 4) (.fin 1, .fin 5) (.fin 0, .fin 4) 4 4 4 (by norm_num) (by norm_num) (by norm_num) (.fin 1) (.fin 1)
  (.fin 1) (by decide +kernel) (by decide +kernel) (by decide +kernel)

theorem small_sum {x : ℚ} (h : x < 2 ^ 60) : x < 2 ^ 1022 := lt_of_lt_of_le h (pow_le_pow_right₀ (by norm_num) (by norm_num))

example := histogram_weights_double spacingDouble [(.fin (1 / 2), 2), (.fin (1 / 3), -1 / 2), (.nan, 3)] (by decide +kernel) (by norm_num)
  (small_sum (by decide +kernel)) (.fin 0, .fin 4) 4 (by norm_num) (.fin 1) (by decide +kernel)
example := histogram_total_double spacingDouble [(.fin (1 / 2), 2), (.fin (1 / 3), -1 / 2), (.nan, 3)] (by decide +kernel) (by norm_num)
  (small_sum (by decide +kernel)) (.fin 0, .fin 4) 4 (by norm_num) (.fin 1) (by decide +kernel)
example := histogram2d_weights_double spacingDouble [((.fin (1 / 2), .fin 3), 2), ((.fin (1 / 3), .nan), -1 / 2)] (by decide +kernel)
  (by norm_num) (small_sum (by decide +kernel)) (.fin 0, .fin 4) (.fin 1, .fin 5) 4 4 (by norm_num) (by norm_num) (.fin 1) (.fin 1)
  (by decide +kernel) (by decide +kernel)
example := histogram3d_weights_double spacingDouble [((.fin (1 / 2), .fin 3, .fin 1), 2)] (by decide +kernel)
  (by norm_num) (small_sum (by decide +kernel)) (.fin 0, .fin 4) (.fin 1, .fin 5) (.fin 0, .fin 4) 4 4 4 (by norm_num) (by norm_num)
  (by norm_num) (.fin 1) (.fin 1) (.fin 1) (by decide +kernel) (by decide +kernel) (by decide +kernel)

end Postpic.Props
