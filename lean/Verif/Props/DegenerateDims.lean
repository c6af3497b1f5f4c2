import Verif.Props.Double

/-!
# C128: particles in a plane or on a line, in two and three dimensions
-/

set_option autoImplicit false
set_option linter.unusedSectionVars false

namespace Postpic.Props

open Postpic Postpic.Spec Postpic.Histogram

/-- The bin in the middle. -/
theorem inBin_middle {bins i : ℕ} (hi : i < bins) : inBin i (Dbl.fin ((bins : ℚ) / 2)) = decide (i = bins / 2) := by
  simp only [inBin, Dbl.lt, Dbl.le]
  have hb0 : (0 : ℚ) < bins / 2 := by
    have : (0 : ℚ) < bins := by exact_mod_cast (by omega : 0 < bins)
    linarith
  rw [Bool.eq_iff_iff]
  simp only [Bool.and_eq_true, decide_eq_true_eq]
  rw [le_div_iff₀ (by norm_num), div_lt_iff₀ (by norm_num)]
  have a : ((i : ℚ) * 2 ≤ bins) ↔ i * 2 ≤ bins := by exact_mod_cast Iff.rfl
  have b : ((bins : ℚ) < (i + 1) * 2) ↔ bins < (i + 1) * 2 := by exact_mod_cast Iff.rfl
  rw [a, b]
  constructor
  · rintro ⟨⟨-, h⟩, h'⟩
    omega
  · intro h
    exact ⟨⟨hb0, by omega⟩, by omega⟩

theorem zip_replicate {α β : Type} (a : α) (l : List β) : (List.replicate l.length a).zip l = l.map fun b => (a, b) := by
  induction l with
  | nil => rfl
  | cons b l ih => rw [List.length_cons, List.replicate_succ, List.zip_cons_cons, ih, List.map_cons]

theorem zip_replicate_right {α β : Type} (a : α) (l : List β) : l.zip (List.replicate l.length a) = l.map fun b => (b, a) := by
  induction l with
  | nil => rfl
  | cons b l ih => rw [List.length_cons, List.replicate_succ, List.zip_cons_cons, ih, List.map_cons]

/-- A histogram which succeeds has a factor. -/
theorem histogram_spacing {rnd : ℚ → Dbl ℚ} {spacing : Dbl ℚ → Dbl ℚ} {s : Shape} {data : List (Dbl ℚ)} {range : Dbl ℚ × Dbl ℚ} {bins : ℕ}
    {w : Option (List (Dbl ℚ))} {h : List (Dbl ℚ)} (hh : histogramF rnd spacing s data range bins w = .ok h) :
    ∃ dx, invSpacingF rnd (fixRangeF rnd spacing range) bins = .ok dx := by
  unfold histogramF at hh
  cases hd : invSpacingF rnd (fixRangeF rnd spacing range) bins with
  | ok dx => exact ⟨dx, rfl⟩
  | error e =>
    simp only [hd] at hh
    cases hh

theorem histogram2d_spacing {rnd : ℚ → Dbl ℚ} {spacing : Dbl ℚ → Dbl ℚ} {s : Shape} {xs ys : List (Dbl ℚ)} {rx ry : Dbl ℚ × Dbl ℚ} {xb yb : ℕ}
    {w : Option (List (Dbl ℚ))} {h : List (List (Dbl ℚ))} (hh : histogram2dF rnd spacing s xs ys rx ry xb yb w = .ok h) :
    xs.length = ys.length ∧ (∃ dx, invSpacingF rnd (fixRangeF rnd spacing rx) xb = .ok dx) ∧
      ∃ dy, invSpacingF rnd (fixRangeF rnd spacing ry) yb = .ok dy := by
  unfold histogram2dF at hh
  by_cases hl : xs.length = ys.length
  · simp only [hl, ne_eq, not_true_eq_false, if_false] at hh
    cases hd : invSpacingF rnd (fixRangeF rnd spacing rx) xb with
    | error e =>
      simp only [hd] at hh
      cases hh
    | ok dx =>
      cases hd2 : invSpacingF rnd (fixRangeF rnd spacing ry) yb with
      | error e =>
        simp only [hd, hd2] at hh
        cases hh
      | ok dy => exact ⟨hl, ⟨dx, rfl⟩, dy, rfl⟩
  · simp only [ne_eq, hl, not_false_eq_true, if_true] at hh
    cases hh

/-- C128: particles with the same positive coordinate along the first axis. The histogram is the one-dimensional histogram of the other coordinate,
in the row in the middle, and zero elsewhere. -/
theorem histogram2d_plane_partial (x : ℚ) (hd : double x = .fin x) (h1 : 2 ^ (-941 : ℤ) ≤ x) (h2 : x < 2 ^ 1023) (ys : List (Dbl ℚ))
    (ry : Dbl ℚ × Dbl ℚ) (xb yb : ℕ) (hxb : xb ≤ 2 ^ 31) (hyb : yb ≤ 2 ^ 31) (hn : ys.length ≤ 2 ^ 31) {h : List (Dbl ℚ)}
    (hh : histogramF double spacingDouble .ngp ys ry yb none = .ok h) :
    histogram2dF double spacingDouble .ngp (List.replicate ys.length (.fin x)) ys (.fin x, .fin x) ry xb yb none =
      .ok ((List.range xb).map fun i => if i = xb / 2 then h else List.replicate yb (.fin 0)) := by
  obtain ⟨dx, hdx, hc⟩ := degenerate_middle x hd h1 h2 xb hxb
  obtain ⟨dy, hdy⟩ := histogram_spacing hh
  rw [histogram_counts double double_rounding spacingDouble _ _ yb hyb hn dy hdy] at hh
  cases hh
  rw [histogram2d_counts double double_rounding spacingDouble _ _ (by simp) _ _ xb yb hxb hyb (by simpa using hn) dx dy hdx hdy]
  refine congrArg Except.ok (List.map_congr_left fun i hi => ?_)
  have hi := List.mem_range.1 hi
  by_cases h : i = xb / 2
  · rw [if_pos h]
    refine List.map_congr_left fun j _ => ?_
    rw [zip_replicate, List.countP_map]
    simp only [Function.comp_def, hc, (inBin_middle hi).trans (decide_eq_true h), Bool.true_and]
  · rw [if_neg h, List.eq_replicate_iff]
    refine ⟨by simp, fun b hb => ?_⟩
    obtain ⟨j, -, rfl⟩ := List.mem_map.1 hb
    rw [zip_replicate, List.countP_map]
    simp only [Function.comp_def, hc, (inBin_middle hi).trans (decide_eq_false h), Bool.false_and, List.countP_false, Function.const_apply, Nat.cast_zero]

/-- C128: the same along the second axis. -/
theorem histogram2d_line_partial (y : ℚ) (hd : double y = .fin y) (h1 : 2 ^ (-941 : ℤ) ≤ y) (h2 : y < 2 ^ 1023) (xs : List (Dbl ℚ))
    (rx : Dbl ℚ × Dbl ℚ) (xb yb : ℕ) (hxb : xb ≤ 2 ^ 31) (hyb : yb ≤ 2 ^ 31) (hn : xs.length ≤ 2 ^ 31) {h : List (Dbl ℚ)}
    (hh : histogramF double spacingDouble .ngp xs rx xb none = .ok h) :
    histogram2dF double spacingDouble .ngp xs (List.replicate xs.length (.fin y)) rx (.fin y, .fin y) xb yb none =
      .ok (h.map fun v => (List.range yb).map fun j => if j = yb / 2 then v else .fin 0) := by
  obtain ⟨dy, hdy, hc⟩ := degenerate_middle y hd h1 h2 yb hyb
  obtain ⟨dx, hdx⟩ := histogram_spacing hh
  rw [histogram_counts double double_rounding spacingDouble _ _ xb hxb hn dx hdx] at hh
  cases hh
  rw [histogram2d_counts double double_rounding spacingDouble _ _ (by simp) _ _ xb yb hxb hyb hn dx dy hdx hdy, List.map_map]
  refine congrArg Except.ok (List.map_congr_left fun i hi => List.map_congr_left fun j hj => ?_)
  have hj := List.mem_range.1 hj
  rw [zip_replicate_right, List.countP_map]
  by_cases h : j = yb / 2
  · rw [if_pos h]
    simp only [Function.comp_def, hc, (inBin_middle hj).trans (decide_eq_true h), Bool.and_true]
  · rw [if_neg h]
    simp only [Function.comp_def, hc, (inBin_middle hj).trans (decide_eq_false h), Bool.and_false, List.countP_false, Function.const_apply, Nat.cast_zero]

/-- C128: particles with the same positive coordinate along the first of three axes. -/
theorem histogram3d_plane_partial (x : ℚ) (hd : double x = .fin x) (h1 : 2 ^ (-941 : ℤ) ≤ x) (h2 : x < 2 ^ 1023) (ys zs : List (Dbl ℚ))
    (ry rz : Dbl ℚ × Dbl ℚ) (xb yb zb : ℕ) (hxb : xb ≤ 2 ^ 31) (hyb : yb ≤ 2 ^ 31) (hzb : zb ≤ 2 ^ 31) (hn : ys.length ≤ 2 ^ 31)
    {h : List (List (Dbl ℚ))} (hh : histogram2dF double spacingDouble .ngp ys zs ry rz yb zb none = .ok h) :
    histogram3dF double spacingDouble .ngp (List.replicate ys.length (.fin x)) ys zs (.fin x, .fin x) ry rz xb yb zb none =
      .ok ((List.range xb).map fun i => if i = xb / 2 then h else List.replicate yb (List.replicate zb (.fin 0))) := by
  obtain ⟨dx, hdx, hc⟩ := degenerate_middle x hd h1 h2 xb hxb
  obtain ⟨hl, ⟨dy, hdy⟩, dz, hdz⟩ := histogram2d_spacing hh
  rw [histogram2d_counts double double_rounding spacingDouble _ _ hl _ _ yb zb hyb hzb hn dy dz hdy hdz] at hh
  cases hh
  rw [histogram3d_counts double double_rounding spacingDouble _ _ _ (by simp) (by simp [hl]) _ _ _ xb yb zb hxb hyb hzb (by simpa using hn) dx dy dz
    hdx hdy hdz]
  have hlen : ys.length = (ys.zip zs).length := by simp [hl]
  have hzip : (List.replicate ys.length (Dbl.fin x)).zip (ys.zip zs) = (ys.zip zs).map fun b => (Dbl.fin x, b) := by
    rw [hlen]
    exact zip_replicate _ _
  refine congrArg Except.ok (List.map_congr_left fun i hi => ?_)
  have hi := List.mem_range.1 hi
  by_cases h : i = xb / 2
  · rw [if_pos h]
    refine List.map_congr_left fun j _ => List.map_congr_left fun k _ => ?_
    rw [hzip, List.countP_map]
    simp only [Function.comp_def, hc, (inBin_middle hi).trans (decide_eq_true h), Bool.true_and]
  · rw [if_neg h, List.eq_replicate_iff]
    refine ⟨by simp, fun b hb => ?_⟩
    obtain ⟨j, -, rfl⟩ := List.mem_map.1 hb
    rw [List.eq_replicate_iff]
    refine ⟨by simp, fun b hb => ?_⟩
    obtain ⟨k, -, rfl⟩ := List.mem_map.1 hb
    rw [hzip, List.countP_map]
    simp only [Function.comp_def, hc, (inBin_middle hi).trans (decide_eq_false h), Bool.false_and, List.countP_false, Function.const_apply, Nat.cast_zero]

/-- C128: particles which are all at the same position in the plane, with positive coordinates, are counted in the bin in the middle. -/
theorem histogram2d_degenerate_partial (x y : ℚ) (hdx : double x = .fin x) (hdy : double y = .fin y) (hx1 : 2 ^ (-941 : ℤ) ≤ x) (hx2 : x < 2 ^ 1023)
    (hy1 : 2 ^ (-941 : ℤ) ≤ y) (hy2 : y < 2 ^ 1023) (xb yb n : ℕ) (hxb : xb ≤ 2 ^ 31) (hyb : yb ≤ 2 ^ 31) (hn : n ≤ 2 ^ 31) :
    histogram2dF double spacingDouble .ngp (List.replicate n (.fin x)) (List.replicate n (.fin y)) (.fin x, .fin x) (.fin y, .fin y) xb yb none =
      .ok ((List.range xb).map fun i => (List.range yb).map fun j => .fin (if i = xb / 2 ∧ j = yb / 2 then n else 0)) := by
  have h := histogram2d_plane_partial x hdx hx1 hx2 (List.replicate n (.fin y)) (.fin y, .fin y) xb yb hxb hyb (by simpa using hn)
    (histogram_degenerate_partial y hdy hy1 hy2 yb n hyb hn)
  rw [List.length_replicate] at h
  rw [h]
  refine congrArg Except.ok (List.map_congr_left fun i _ => ?_)
  by_cases hi : i = xb / 2
  · rw [if_pos hi]
    simp only [hi, true_and]
  · rw [if_neg hi]
    simp only [hi, false_and, if_false]
    symm
    rw [List.eq_replicate_iff]
    refine ⟨by simp, fun b hb => ?_⟩
    obtain ⟨j, -, rfl⟩ := List.mem_map.1 hb
    rfl

/-- C128: the same in space. -/
theorem histogram3d_degenerate_partial (x y z : ℚ) (hdx : double x = .fin x) (hdy : double y = .fin y) (hdz : double z = .fin z)
    (hx1 : 2 ^ (-941 : ℤ) ≤ x) (hx2 : x < 2 ^ 1023) (hy1 : 2 ^ (-941 : ℤ) ≤ y) (hy2 : y < 2 ^ 1023) (hz1 : 2 ^ (-941 : ℤ) ≤ z) (hz2 : z < 2 ^ 1023)
    (xb yb zb n : ℕ) (hxb : xb ≤ 2 ^ 31) (hyb : yb ≤ 2 ^ 31) (hzb : zb ≤ 2 ^ 31) (hn : n ≤ 2 ^ 31) :
    histogram3dF double spacingDouble .ngp (List.replicate n (.fin x)) (List.replicate n (.fin y)) (List.replicate n (.fin z)) (.fin x, .fin x)
        (.fin y, .fin y) (.fin z, .fin z) xb yb zb none =
      .ok ((List.range xb).map fun i => (List.range yb).map fun j => (List.range zb).map fun k =>
        .fin (if i = xb / 2 ∧ j = yb / 2 ∧ k = zb / 2 then n else 0)) := by
  have h := histogram3d_plane_partial x hdx hx1 hx2 (List.replicate n (.fin y)) (List.replicate n (.fin z)) (.fin y, .fin y) (.fin z, .fin z) xb yb zb
    hxb hyb hzb (by simpa using hn) (histogram2d_degenerate_partial y z hdy hdz hy1 hy2 hz1 hz2 yb zb n hyb hzb hn)
  rw [List.length_replicate] at h
  rw [h]
  refine congrArg Except.ok (List.map_congr_left fun i _ => ?_)
  by_cases hi : i = xb / 2
  · rw [if_pos hi]
    simp only [hi, true_and]
  · rw [if_neg hi]
    simp only [hi, false_and, if_false]
    symm
    rw [List.eq_replicate_iff]
    refine ⟨by simp, fun b hb => ?_⟩
    obtain ⟨j, -, rfl⟩ := List.mem_map.1 hb
    rw [List.eq_replicate_iff]
    refine ⟨by simp, fun b hb => ?_⟩
    obtain ⟨k, -, rfl⟩ := List.mem_map.1 hb
    rfl

/-- C128, violated in two dimensions: if all particles have the same negative coordinate, the whole histogram is a ZeroDivisionError, wherever they are
along the other axis. -/
theorem histogram2d_degenerate_violated (x : ℚ) (hx : x < 0) (xs ys : List (Dbl ℚ)) (hl : xs.length = ys.length) (ry : Dbl ℚ × Dbl ℚ) (xb yb : ℕ)
    (s : Shape) (w : Option (List (Dbl ℚ))) : histogram2dF double spacingDouble s xs ys (.fin x, .fin x) ry xb yb w = .error .zeroDivisionError := by
  have h := histogram_degenerate_negative_violated x hx s [] xb none
  have hd : invSpacingF double (fixRangeF double spacingDouble (.fin x, .fin x)) xb = .error .zeroDivisionError := by
    unfold histogramF at h
    cases hd : invSpacingF double (fixRangeF double spacingDouble (.fin x, .fin x)) xb with
    | error e =>
      simp only [hd] at h
      cases h
      rfl
    | ok dx =>
      simp only [hd] at h
      cases h
  unfold histogram2dF
  simp only [hl, ne_eq, not_true_eq_false, if_false, hd]
  rfl

theorem positive_double : double (3 / 2) = .fin (3 / 2) ∧ double 5 = .fin 5 ∧ (2 : ℚ) ^ (-941 : ℤ) ≤ 3 / 2 ∧ (3 / 2 : ℚ) < 2 ^ 1023 ∧
    (2 : ℚ) ^ (-941 : ℤ) ≤ 5 ∧ (5 : ℚ) < 2 ^ 1023 := by decide +kernel

example := histogram2d_degenerate_partial (3 / 2) 5 positive_double.1 positive_double.2.1 positive_double.2.2.1 positive_double.2.2.2.1
  positive_double.2.2.2.2.1 positive_double.2.2.2.2.2 10 7 1000 (by norm_num) (by norm_num) (by norm_num)
example := histogram3d_degenerate_partial (3 / 2) 5 5 positive_double.1 positive_double.2.1 positive_double.2.1 positive_double.2.2.1
  positive_double.2.2.2.1 positive_double.2.2.2.2.1 positive_double.2.2.2.2.2 positive_double.2.2.2.2.1 positive_double.2.2.2.2.2 10 7 8 1000
  (by norm_num) (by norm_num) (by norm_num) (by norm_num)
example := histogram2d_line_partial 5 positive_double.2.1 positive_double.2.2.2.2.1 positive_double.2.2.2.2.2 [.fin 1, .fin (1 / 2)] (.fin 0, .fin 2)
  4 7 (by norm_num) (by norm_num) (by norm_num) (h := [.fin 0, .fin 1, .fin 1, .fin 0]) (by decide +kernel)

end Postpic.Props
