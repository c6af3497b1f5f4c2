import Verif.Spec.HistogramEdge
import Verif.Lemmas.GradientFloat
import Verif.Props.Double

/-!
# C129: rounding moves particles only across the edge next to them
-/

set_option autoImplicit false
set_option linter.unusedSectionVars false

namespace Postpic.Props

open Postpic Postpic.Spec Postpic.Histogram Postpic.Fields

section
variable {K : Type} [_root_.Field K] [LinearOrder K] [IsStrictOrderedRing K] [FloorRing K] {rnd : K → Dbl K} {u : K}

/-- The computed positions. -/
theorem computed_place (A : Accurate rnd u) (hu1 : u < 1) (spacing : Dbl K → Dbl K) {xmin xmax : K} (hx : xmin ≠ xmax)
    (hr : fixRangeF rnd spacing (.fin xmin, .fin xmax) = (.fin xmin, .fin xmax)) (bins : ℕ) :
    ∃ dx, invSpacingF rnd (fixRangeF rnd spacing (.fin xmin, .fin xmax)) bins = .ok dx ∧
      ∀ d, ∃ y, computed rnd (fixRangeF rnd spacing (.fin xmin, .fin xmax)).1 dx (.fin d) = .fin y ∧
        Within u 5 (place xmin xmax bins d) y := by
  have hu0 := A.nonneg
  rw [hr]
  obtain ⟨w, w1, w2⟩ := sub_near A xmax xmin
  have W : Within u 1 (xmax - xmin) w := within_round hu0 hu1 (within_refl _) w2
  have w0 : w ≠ 0 := within_ne hu1 (sub_ne_zero.2 hx.symm) W
  obtain ⟨i, i1, i2⟩ := A.near (1 / w)
  have I : Within u 2 (1 / (xmax - xmin)) i := within_round hu0 hu1 (k := 1) (by simpa using within_div hu1 (within_refl 1) W) i2
  obtain ⟨dx, d1, d2⟩ := mul_near A i bins
  have D : Within u 3 (1 / (xmax - xmin) * bins) dx := within_round hu0 hu1 (k := 2) (by simpa using within_mul hu1 I (within_refl (bins : K))) d2
  refine ⟨.fin dx, ?_, fun d => ?_⟩
  · simp only [invSpacingF, w1, Dbl.div, if_neg w0, i1, bind, Except.bind, d1]
    rfl
  · obtain ⟨s, s1, s2⟩ := sub_near A d xmin
    have S : Within u 1 (d - xmin) s := within_round hu0 hu1 (within_refl _) s2
    obtain ⟨y, y1, y2⟩ := mul_near A s dx
    refine ⟨y, by simp only [computed, s1, y1], ?_⟩
    have := within_round hu0 hu1 (within_mul hu1 S D) y2
    have e : place xmin xmax bins d = (d - xmin) * (1 / (xmax - xmin) * bins) := by
      unfold place
      ring
    rw [e]
    exact this

/-- Positions which are surely in some bins are put there, and no others than those which maybe are. -/
theorem position_sandwich (hu1 : u < 1) {i j : ℕ} {t y : K} (h : Within u 5 t y) :
    (surelyIn ((1 - u) ^ 5) i j t → 0 < y ∧ (i : K) ≤ y ∧ y < j) ∧ (0 < y ∧ (i : K) ≤ y ∧ y < j → maybeIn ((1 - u) ^ 5) i j t) := by
  obtain ⟨s, h1, h2, rfl⟩ := h
  have q0 : 0 < (1 - u) ^ 5 := pow_pos (by linarith) 5
  generalize (1 - u) ^ 5 = q at h1 h2 q0
  have s0 : 0 < s := lt_of_lt_of_le q0 h1
  constructor
  · rintro ⟨t0, a, b⟩
    refine ⟨mul_pos t0 s0, a.trans (mul_le_mul_of_nonneg_left h1 t0.le), ?_⟩
    calc t * s < j * q * s := mul_lt_mul_of_pos_right b s0
      _ = j * (s * q) := by ring
      _ ≤ j * 1 := mul_le_mul_of_nonneg_left h2 (Nat.cast_nonneg _)
      _ = j := mul_one _
  · rintro ⟨t0, a, b⟩
    have t0 : 0 < t := (pos_iff_pos_of_mul_pos t0).2 s0
    refine ⟨t0, ?_, lt_of_le_of_lt (mul_le_mul_of_nonneg_left h1 t0.le) b⟩
    calc (i : K) * q ≤ t * s * q := mul_le_mul_of_nonneg_right a q0.le
      _ = t * (s * q) := by ring
      _ ≤ t * 1 := mul_le_mul_of_nonneg_left h2 t0.le
      _ = t := mul_one _

theorem inBin_fin (i : ℕ) (y : K) : inBin i (.fin y) = decide (0 < y ∧ (i : K) ≤ y ∧ y < (i + 1 : ℕ)) := by
  rw [Bool.eq_iff_iff]
  simp [inBin, Dbl.lt, Dbl.le, and_assoc]

/-- All bins together. -/
theorem sum_inBin (y : K) (n : ℕ) :
    ((List.range n).map fun i => if inBin i (.fin y) then (1 : ℕ) else 0).sum = if 0 < y ∧ y < n then 1 else 0 := by
  induction n with
  | zero => 
    rw [if_neg]
    · rfl
    · rintro ⟨h1, h2⟩
      rw [Nat.cast_zero] at h2
      exact absurd h1 h2.not_gt
  | succ n ih =>
    rw [List.range_succ, List.map_append, List.sum_append, ih]
    simp only [List.map_cons, List.map_nil, List.sum_cons, List.sum_nil, inBin_fin, decide_eq_true_eq, Nat.add_zero]
    have hn : (n : K) < (n + 1 : ℕ) := by exact_mod_cast Nat.lt_succ_self n
    by_cases h0 : 0 < y
    · by_cases h1 : y < n
      · rw [if_pos ⟨h0, h1⟩, if_neg (fun h => absurd h.2.1 (not_le.2 h1)), if_pos ⟨h0, h1.trans hn⟩]
      · rw [if_neg (fun h => h1 h.2)]
        by_cases h2 : y < (n + 1 : ℕ)
        · rw [if_pos ⟨h0, not_lt.1 h1, h2⟩, if_pos ⟨h0, h2⟩]
        · rw [if_neg (fun h => h2 h.2.2), if_neg (fun h => h2 h.2)]
    · rw [if_neg (fun h => h0 h.1), if_neg (fun h => h0 h.1), if_neg (fun h => h0 h.1)]

theorem sum_countP {α : Type} (data : List α) (p : ℕ → α → Bool) (n : ℕ) :
    ((List.range n).map fun i => data.countP (p i)).sum = (data.map fun d => ((List.range n).map fun i => if p i d then 1 else 0).sum).sum := by
  induction data with
  | nil => simp
  | cons d l ih =>
    simp only [List.countP_cons, List.map_cons, List.sum_cons]
    rw [← ih, ← List.sum_map_add]
    refine congrArg List.sum (List.map_congr_left fun i _ => Nat.add_comm _ _)

/-- C129: a bin contains at least the particles which are inside of the bin and not closer to its ends than the rounding errors, and at most the
particles which are inside of the bin or that close to its ends. -/
theorem histogram_bin_rounded (A : Accurate rnd u) (hr : Rounding rnd) (hu1 : u < 1) (spacing : Dbl K → Dbl K) (data : List K) {xmin xmax : K}
    (hx : xmin ≠ xmax) (hf : fixRangeF rnd spacing (.fin xmin, .fin xmax) = (.fin xmin, .fin xmax)) (bins : ℕ) (hb : bins ≤ 2 ^ 31)
    (hn : data.length ≤ 2 ^ 31) :
    ∃ c : ℕ → ℕ, histogramF rnd spacing .ngp (data.map .fin) (.fin xmin, .fin xmax) bins none = .ok ((List.range bins).map fun i => .fin (c i : K)) ∧
      (∀ i, data.countP (fun d => surelyIn ((1 - u) ^ 5) i (i + 1) (place xmin xmax bins d)) ≤ c i ∧
        c i ≤ data.countP fun d => maybeIn ((1 - u) ^ 5) i (i + 1) (place xmin xmax bins d)) ∧
      data.countP (fun d => surelyIn ((1 - u) ^ 5) 0 bins (place xmin xmax bins d)) ≤ ((List.range bins).map c).sum ∧
      ((List.range bins).map c).sum ≤ data.countP fun d => maybeIn ((1 - u) ^ 5) 0 bins (place xmin xmax bins d) := by
  obtain ⟨dx, hdx, hc⟩ := computed_place A hu1 spacing hx hf bins
  choose y hy W using hc
  refine ⟨fun i => data.countP fun d => inBin i (.fin (y d)), ?_, fun i => ⟨?_, ?_⟩, ?_⟩
  · rw [histogram_counts rnd hr spacing _ _ bins hb (by simpa using hn) dx hdx]
    refine congrArg Except.ok (List.map_congr_left fun i _ => ?_)
    rw [List.countP_map]
    congr 3
    funext d
    simp only [Function.comp_apply, hy]
  · refine List.countP_mono_left fun d _ h => ?_
    rw [inBin_fin]
    exact decide_eq_true ((position_sandwich hu1 (W d)).1 (of_decide_eq_true h))
  · refine List.countP_mono_left fun d _ h => ?_
    rw [inBin_fin] at h
    exact decide_eq_true ((position_sandwich hu1 (W d)).2 (of_decide_eq_true h))
  · rw [sum_countP]
    simp only [sum_inBin]
    have e : (data.map fun d => if 0 < y d ∧ y d < bins then (1 : ℕ) else 0).sum = data.countP fun d => 0 < y d ∧ y d < bins := by
      clear W hy hn
      induction data with
      | nil => rfl
      | cons d l ih => 
        simp only [List.map_cons, List.sum_cons, ih, List.countP_cons, decide_eq_true_eq]
        exact Nat.add_comm _ _
    rw [e]
    constructor
    · refine List.countP_mono_left fun d _ h => ?_
      obtain ⟨a, -, b⟩ := (position_sandwich hu1 (W d)).1 (of_decide_eq_true h)
      exact decide_eq_true ⟨a, b⟩
    · refine List.countP_mono_left fun d _ h => ?_
      obtain ⟨a, b⟩ := of_decide_eq_true h
      exact decide_eq_true ((position_sandwich hu1 (W d)).2 ⟨a, by simpa using a.le, b⟩)

/-- C129: the same for the bins in two dimensions. -/
theorem histogram2d_bin_rounded (A : Accurate rnd u) (hr : Rounding rnd) (hu1 : u < 1) (spacing : Dbl K → Dbl K) (data : List (K × K))
    {xmin xmax ymin ymax : K} (hx : xmin ≠ xmax) (hy : ymin ≠ ymax)
    (hfx : fixRangeF rnd spacing (.fin xmin, .fin xmax) = (.fin xmin, .fin xmax))
    (hfy : fixRangeF rnd spacing (.fin ymin, .fin ymax) = (.fin ymin, .fin ymax)) (xb yb : ℕ) (hxb : xb ≤ 2 ^ 31) (hyb : yb ≤ 2 ^ 31)
    (hn : data.length ≤ 2 ^ 31) :
    ∃ c : ℕ → ℕ → ℕ, histogram2dF rnd spacing .ngp (data.map fun d => .fin d.1) (data.map fun d => .fin d.2) (.fin xmin, .fin xmax)
        (.fin ymin, .fin ymax) xb yb none = .ok ((List.range xb).map fun i => (List.range yb).map fun j => .fin (c i j : K)) ∧
      ∀ i j, data.countP (fun d => surelyIn ((1 - u) ^ 5) i (i + 1) (place xmin xmax xb d.1) ∧
          surelyIn ((1 - u) ^ 5) j (j + 1) (place ymin ymax yb d.2)) ≤ c i j ∧
        c i j ≤ data.countP fun d => maybeIn ((1 - u) ^ 5) i (i + 1) (place xmin xmax xb d.1) ∧
          maybeIn ((1 - u) ^ 5) j (j + 1) (place ymin ymax yb d.2) := by
  obtain ⟨dx, hdx, hcx⟩ := computed_place A hu1 spacing hx hfx xb
  obtain ⟨dy, hdy, hcy⟩ := computed_place A hu1 spacing hy hfy yb
  choose X hX WX using hcx
  choose Y hY WY using hcy
  refine ⟨fun i j => data.countP fun d => inBin i (.fin (X d.1)) && inBin j (.fin (Y d.2)), ?_, fun i j => ⟨?_, ?_⟩⟩
  · rw [histogram2d_counts rnd hr spacing _ _ (by simp) _ _ xb yb hxb hyb (by simpa using hn) dx dy hdx hdy]
    refine congrArg Except.ok (List.map_congr_left fun i _ => List.map_congr_left fun j _ => ?_)
    rw [List.zip_map', List.countP_map]
    congr 3
    funext d
    simp only [Function.comp_apply, hX, hY]
  · refine List.countP_mono_left fun d _ h => ?_
    obtain ⟨h1, h2⟩ := of_decide_eq_true h
    rw [inBin_fin, inBin_fin, decide_eq_true ((position_sandwich hu1 (WX d.1)).1 h1), decide_eq_true ((position_sandwich hu1 (WY d.2)).1 h2)]
    rfl
  · refine List.countP_mono_left fun d _ h => ?_
    rw [inBin_fin, inBin_fin, Bool.and_eq_true] at h
    exact decide_eq_true ⟨(position_sandwich hu1 (WX d.1)).2 (of_decide_eq_true h.1), (position_sandwich hu1 (WY d.2)).2 (of_decide_eq_true h.2)⟩

/-- C129: the same for the bins in three dimensions. -/
theorem histogram3d_bin_rounded (A : Accurate rnd u) (hr : Rounding rnd) (hu1 : u < 1) (spacing : Dbl K → Dbl K) (data : List (K × K × K))
    {xmin xmax ymin ymax zmin zmax : K} (hx : xmin ≠ xmax) (hy : ymin ≠ ymax) (hz : zmin ≠ zmax)
    (hfx : fixRangeF rnd spacing (.fin xmin, .fin xmax) = (.fin xmin, .fin xmax))
    (hfy : fixRangeF rnd spacing (.fin ymin, .fin ymax) = (.fin ymin, .fin ymax))
    (hfz : fixRangeF rnd spacing (.fin zmin, .fin zmax) = (.fin zmin, .fin zmax)) (xb yb zb : ℕ) (hxb : xb ≤ 2 ^ 31) (hyb : yb ≤ 2 ^ 31)
    (hzb : zb ≤ 2 ^ 31) (hn : data.length ≤ 2 ^ 31) :
    ∃ c : ℕ → ℕ → ℕ → ℕ, histogram3dF rnd spacing .ngp (data.map fun d => .fin d.1) (data.map fun d => .fin d.2.1)
        (data.map fun d => .fin d.2.2) (.fin xmin, .fin xmax) (.fin ymin, .fin ymax) (.fin zmin, .fin zmax) xb yb zb none =
          .ok ((List.range xb).map fun i => (List.range yb).map fun j => (List.range zb).map fun k => .fin (c i j k : K)) ∧
      ∀ i j k, data.countP (fun d => surelyIn ((1 - u) ^ 5) i (i + 1) (place xmin xmax xb d.1) ∧
          surelyIn ((1 - u) ^ 5) j (j + 1) (place ymin ymax yb d.2.1) ∧ surelyIn ((1 - u) ^ 5) k (k + 1) (place zmin zmax zb d.2.2)) ≤ c i j k ∧
        c i j k ≤ data.countP fun d => maybeIn ((1 - u) ^ 5) i (i + 1) (place xmin xmax xb d.1) ∧
          maybeIn ((1 - u) ^ 5) j (j + 1) (place ymin ymax yb d.2.1) ∧ maybeIn ((1 - u) ^ 5) k (k + 1) (place zmin zmax zb d.2.2) := by
  obtain ⟨dx, hdx, hcx⟩ := computed_place A hu1 spacing hx hfx xb
  obtain ⟨dy, hdy, hcy⟩ := computed_place A hu1 spacing hy hfy yb
  obtain ⟨dz, hdz, hcz⟩ := computed_place A hu1 spacing hz hfz zb
  choose X hX WX using hcx
  choose Y hY WY using hcy
  choose Z hZ WZ using hcz
  refine ⟨fun i j k => data.countP fun d => inBin i (.fin (X d.1)) && (inBin j (.fin (Y d.2.1)) && inBin k (.fin (Z d.2.2))), ?_,
    fun i j k => ⟨?_, ?_⟩⟩
  · rw [histogram3d_counts rnd hr spacing _ _ _ (by simp) (by simp) _ _ _ xb yb zb hxb hyb hzb (by simpa using hn) dx dy dz hdx hdy hdz]
    refine congrArg Except.ok (List.map_congr_left fun i _ => List.map_congr_left fun j _ => List.map_congr_left fun k _ => ?_)
    rw [List.zip_map', List.zip_map', List.countP_map]
    congr 3
    funext d
    simp only [Function.comp_apply, hX, hY, hZ]
  · refine List.countP_mono_left fun d _ h => ?_
    obtain ⟨h1, h2, h3⟩ := of_decide_eq_true h
    rw [inBin_fin, inBin_fin, inBin_fin, decide_eq_true ((position_sandwich hu1 (WX d.1)).1 h1),
      decide_eq_true ((position_sandwich hu1 (WY d.2.1)).1 h2), decide_eq_true ((position_sandwich hu1 (WZ d.2.2)).1 h3)]
    rfl
  · refine List.countP_mono_left fun d _ h => ?_
    rw [inBin_fin, inBin_fin, inBin_fin, Bool.and_eq_true, Bool.and_eq_true] at h
    exact decide_eq_true ⟨(position_sandwich hu1 (WX d.1)).2 (of_decide_eq_true h.1),
      (position_sandwich hu1 (WY d.2.1)).2 (of_decide_eq_true h.2.1), (position_sandwich hu1 (WZ d.2.2)).2 (of_decide_eq_true h.2.2)⟩

end

/-- The margins are needed: computed with doubles, a particle inside of the range is lost (the largest double below 5 in the range from 0 to 5,
divided into 3 bins), and a particle at the upper end, which usually is not counted, is counted (3 in the range from 0 to 3, divided into 7 bins). -/
theorem histogram_edge_rounded :
    histogramF double spacingDouble .ngp [.fin (5 - 1 / 2 ^ 50)] (.fin 0, .fin 5) 3 none = .ok [.fin 0, .fin 0, .fin 0] ∧
    double (5 - 1 / 2 ^ 50) = .fin (5 - 1 / 2 ^ 50) ∧
    histogramF double spacingDouble .ngp [.fin 3] (.fin 0, .fin 3) 7 none = .ok [.fin 0, .fin 0, .fin 0, .fin 0, .fin 0, .fin 0, .fin 1] ∧
    histogramF double spacingDouble .ngp [.fin 3] (.fin 0, .fin 3) 3 none = .ok [.fin 0, .fin 0, .fin 0] := by
  decide +kernel

example := histogram_bin_rounded nearest53_accurate nearest53_rounding (by norm_num) spacingDouble [1 / 2, 7 / 3, 5, -1]
  (xmin := 0) (xmax := 3) (by norm_num) (by decide +kernel) 4 (by norm_num) (by decide)
example := histogram2d_bin_rounded nearest53_accurate nearest53_rounding (by norm_num) spacingDouble [(1 / 2, 1), (7 / 3, 1 / 3)]
  (xmin := 0) (xmax := 3) (ymin := 2) (ymax := -1) (by norm_num) (by norm_num) (by decide +kernel) (by decide +kernel) 4 5 (by norm_num) (by norm_num)
  (by decide)
example := histogram3d_bin_rounded nearest53_accurate nearest53_rounding (by norm_num) spacingDouble [(1 / 2, 1, 3), (7 / 3, 1 / 3, 2)]
  (xmin := 0) (xmax := 3) (ymin := 2) (ymax := -1) (zmin := 1) (zmax := 4) (by norm_num) (by norm_num) (by norm_num) (by decide +kernel)
  (by decide +kernel) (by decide +kernel) 4 5 6 (by norm_num) (by norm_num) (by norm_num) (by decide)

/-- The particles in the middle of a bin are surely in it. -/
example : surelyIn ((1 - 1 / 2 ^ 53 : ℚ) ^ 5) 2 3 (5 / 2) ∧ ¬ surelyIn ((1 - 1 / 2 ^ 53 : ℚ) ^ 5) 2 3 3 ∧ maybeIn ((1 - 1 / 2 ^ 53 : ℚ) ^ 5) 2 3 3 ∧
    ¬ maybeIn ((1 - 1 / 2 ^ 53 : ℚ) ^ 5) 2 3 (7 / 2) := by decide +kernel

end Postpic.Props
