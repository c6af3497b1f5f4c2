import Verif.Lemmas.HistogramDouble

/-!
# C132: rounding moves particles only across the edge next to them, with IEEE doubles
-/

set_option autoImplicit false
set_option linter.unusedSectionVars false

namespace Postpic.Props

open Postpic Postpic.Spec Postpic.Histogram Postpic.Fields

theorem double_neg {a : ℚ} (h : double a = .fin a) : double (-a) = .fin (-a) := by
  unfold double at h ⊢
  rw [nearDouble_neg, abs_neg]
  split_ifs at h ⊢
  rw [Dbl.fin.inj h]

/-- IEEE doubles satisfy the standard model with limits. -/
theorem double_limited : Limited double (1 / 2 ^ 53) (2 ^ (-1022 : ℤ)) (2 ^ 1023) where
  nonneg := by norm_num
  near x h1 h2 := by
    rw [double_digits53 h2 (Or.inl h1)]
    exact digits53_accurate.near x
  sum a b ha hb h := by
    rw [double_add ha hb h]
    exact digits53_accurate.near (a + b)
  neg _ := double_neg
  large := by
    refine double_exact 1 1023 (by norm_num) (by norm_num) ?_ ?_
    · rw [Int.cast_one, one_mul, show (2 : ℚ) ^ (1023 : ℤ) = 2 ^ 1023 from zpow_natCast 2 1023]
    · rw [abs_of_pos (pow_pos (by norm_num) 1023)]
      exact pow_lt_pow_right₀ (by norm_num) (by norm_num)
  small x h := by
    have e := nearDouble_exact 1 (-1022) (by norm_num) (by norm_num)
    rw [Int.cast_one, one_mul] at e
    have b : |nearDouble x| ≤ 2 ^ (-1022 : ℤ) := by
      obtain ⟨h1, h2⟩ := abs_le.1 h.le
      have m1 := nearDouble_mono h1
      have m2 := nearDouble_mono h2
      rw [nearDouble_neg] at m1
      rw [e] at m1 m2
      exact abs_le.2 ⟨m1, m2⟩
    refine ⟨nearDouble x, double_fin (lt_of_le_of_lt b (two_zpow_lt (by norm_num))), b, fun hy => ?_⟩
    by_contra hx
    have := nearDouble_mono (not_lt.1 hx)
    rw [nearDouble_zero] at this
    exact absurd hy (not_lt.2 this)

/-- The range is neither extremely small nor extremely large. -/
structure Ordinary (xmin xmax : ℚ) : Prop where
  left : double xmin = .fin xmin
  right : double xmax = .fin xmax
  small : 1 ≤ |xmax - xmin| * 2 ^ 500
  large : |xmax - xmin| ≤ 2 ^ 500

/-- The computed positions, with doubles. -/
theorem position_double {xmin xmax : ℚ} (ho : Ordinary xmin xmax) {bins : ℕ} (hb0 : 0 < bins) (hb : bins ≤ 2 ^ 31) :
    ∃ dx, invSpacingF double (.fin xmin, .fin xmax) bins = .ok (.fin dx) ∧ ∀ d, double d = .fin d → ∀ i j, j ≤ bins →
      (surelyIn ((1 - 1 / 2 ^ 53) ^ 5) i j (place xmin xmax bins d) → 2 ^ (-1021 : ℤ) ≤ place xmin xmax bins d →
        between i j (computed double (.fin xmin) (.fin dx) (.fin d)) = true) ∧
      (between i j (computed double (.fin xmin) (.fin dx) (.fin d)) = true → maybeIn ((1 - 1 / 2 ^ 53) ^ 5) i j (place xmin xmax bins d)) := by
  have hu1 : (1 / 2 ^ 53 : ℚ) < 1 := by norm_num
  have h5 : (1 / 2 : ℚ) ≤ (1 - 1 / 2 ^ 53) ^ 5 := by norm_num
  have hP : (2 ^ 40 : ℚ) ≤ 2 ^ 500 := pow_le_pow_right₀ (by norm_num) (by norm_num)
  have hB : ((2 : ℚ) ^ 500) ^ 2 ≤ 2 ^ 1023 := by
    rw [← pow_mul]
    exact pow_le_pow_right₀ (by norm_num) (by norm_num)
  have hE : (2 : ℚ) ^ (-1022 : ℤ) * (2 ^ 500) ^ 2 ≤ 1 := by
    rw [← pow_mul, show (2 : ℚ) ^ (500 * 2) = 2 ^ (1000 : ℤ) from (zpow_natCast 2 1000).symm, ← zpow_add₀ (by norm_num)]
    exact zpow_le_one_of_nonpos₀ (by norm_num) (by norm_num)
  have hE2 : (2 : ℚ) ^ (-1022 : ℤ) < 1 := zpow_lt_one_of_neg₀ (by norm_num) (by norm_num)
  have e2 : (2 : ℚ) ^ (-1021 : ℤ) = 2 * 2 ^ (-1022 : ℤ) := by
    rw [show (-1021 : ℤ) = 1 + -1022 by norm_num, zpow_add₀ (by norm_num), zpow_one]
  have hw0 : xmax - xmin ≠ 0 := by
    intro h
    have := ho.small
    rw [h, abs_zero, zero_mul] at this
    exact absurd this (by norm_num)
  obtain ⟨dx, h1, h2⟩ := spacing_limited double_limited hu1 h5 hP hB hE ho.left ho.right ho.small ho.large hb0 hb
  refine ⟨dx, h1, fun d hd i j hj => ?_⟩
  rw [e2]
  exact position_limited double_limited double_rounding hu1 h5 hP hB (two_zpow_pos _) hE2 ho.left ho.large hw0 hb0 hb h2 hd hj

/-- All bins together. -/
theorem sum_between (x : Dbl ℚ) (n : ℕ) : ((List.range n).map fun i => if inBin i x then (1 : ℕ) else 0).sum = if between 0 n x then 1 else 0 := by
  cases x with
  | fin y =>
    rw [sum_inBin]
    refine if_congr ?_ rfl rfl
    rw [between_fin_iff]
    exact ⟨fun h => ⟨h.1, by simpa using h.1.le, h.2⟩, fun h => ⟨h.1, h.2.2⟩⟩
  | inf s =>
    simp only [inBin_between, between_inf]
    simp
  | nan => simp [inBin_between, between, Dbl.lt]

theorem sum_ite_countP {α : Type} (l : List α) (p : α → Bool) : (l.map fun d => if p d then (1 : ℕ) else 0).sum = l.countP p := by
  induction l with
  | nil => rfl
  | cons d l ih =>
    simp only [List.map_cons, List.sum_cons, ih, List.countP_cons]
    exact Nat.add_comm _ _

/-- C132: a bin contains at least the particles which are inside of the bin and not closer to its ends than the rounding errors, and at most the
particles which are inside of the bin or that close to its ends. -/
theorem histogram_bin_double (spacing : Dbl ℚ → Dbl ℚ) (data : List ℚ) (hd : ∀ d ∈ data, double d = .fin d) (range : Dbl ℚ × Dbl ℚ) {xmin xmax : ℚ}
    (hf : fixRangeF double spacing range = (.fin xmin, .fin xmax)) (ho : Ordinary xmin xmax) {bins : ℕ} (hb0 : 0 < bins) (hb : bins ≤ 2 ^ 31)
    (hn : data.length ≤ 2 ^ 31) :
    ∃ c : ℕ → ℕ, histogramF double spacing .ngp (data.map .fin) range bins none = .ok ((List.range bins).map fun i => .fin (c i : ℚ)) ∧
      (∀ i < bins, data.countP (fun d => surelyIn ((1 - 1 / 2 ^ 53) ^ 5) i (i + 1) (place xmin xmax bins d) ∧
          2 ^ (-1021 : ℤ) ≤ place xmin xmax bins d) ≤ c i ∧
        c i ≤ data.countP fun d => maybeIn ((1 - 1 / 2 ^ 53) ^ 5) i (i + 1) (place xmin xmax bins d)) ∧
      data.countP (fun d => surelyIn ((1 - 1 / 2 ^ 53) ^ 5) 0 bins (place xmin xmax bins d) ∧ 2 ^ (-1021 : ℤ) ≤ place xmin xmax bins d) ≤
        ((List.range bins).map c).sum ∧
      ((List.range bins).map c).sum ≤ data.countP fun d => maybeIn ((1 - 1 / 2 ^ 53) ^ 5) 0 bins (place xmin xmax bins d) := by
  obtain ⟨dx, hdx, hc⟩ := position_double ho hb0 hb
  refine ⟨fun i => data.countP fun d => inBin i (computed double (.fin xmin) (.fin dx) (.fin d)), ?_, fun i hi => ⟨?_, ?_⟩, ?_⟩
  · rw [histogram_counts double double_rounding spacing _ _ bins hb (by simpa using hn) (.fin dx) (by rw [hf]; exact hdx), hf]
    refine congrArg Except.ok (List.map_congr_left fun i _ => ?_)
    rw [List.countP_map]
    rfl
  · refine List.countP_mono_left fun d hm h => ?_
    rw [inBin_between]
    obtain ⟨h1, h2⟩ := of_decide_eq_true h
    exact (hc d (hd d hm) i (i + 1) hi).1 h1 h2
  · refine List.countP_mono_left fun d hm h => ?_
    rw [inBin_between] at h
    exact decide_eq_true ((hc d (hd d hm) i (i + 1) hi).2 h)
  · rw [sum_countP]
    simp only [sum_between]
    rw [sum_ite_countP]
    constructor
    · refine List.countP_mono_left fun d hm h => ?_
      obtain ⟨h1, h2⟩ := of_decide_eq_true h
      exact (hc d (hd d hm) 0 bins le_rfl).1 h1 h2
    · refine List.countP_mono_left fun d hm h => ?_
      exact decide_eq_true ((hc d (hd d hm) 0 bins le_rfl).2 h)

/-- C132: the same for the bins in two dimensions. -/
theorem histogram2d_bin_double (spacing : Dbl ℚ → Dbl ℚ) (data : List (ℚ × ℚ)) (hd : ∀ d ∈ data, double d.1 = .fin d.1 ∧ double d.2 = .fin d.2)
    (rx ry : Dbl ℚ × Dbl ℚ) {xmin xmax ymin ymax : ℚ} (hfx : fixRangeF double spacing rx = (.fin xmin, .fin xmax))
    (hfy : fixRangeF double spacing ry = (.fin ymin, .fin ymax)) (hox : Ordinary xmin xmax) (hoy : Ordinary ymin ymax) {xb yb : ℕ} (hx0 : 0 < xb)
    (hy0 : 0 < yb) (hxb : xb ≤ 2 ^ 31) (hyb : yb ≤ 2 ^ 31) (hn : data.length ≤ 2 ^ 31) :
    ∃ c : ℕ → ℕ → ℕ, histogram2dF double spacing .ngp (data.map fun d => .fin d.1) (data.map fun d => .fin d.2) rx ry xb yb none =
        .ok ((List.range xb).map fun i => (List.range yb).map fun j => .fin (c i j : ℚ)) ∧
      ∀ i < xb, ∀ j < yb, data.countP (fun d =>
          (surelyIn ((1 - 1 / 2 ^ 53) ^ 5) i (i + 1) (place xmin xmax xb d.1) ∧ 2 ^ (-1021 : ℤ) ≤ place xmin xmax xb d.1) ∧
          surelyIn ((1 - 1 / 2 ^ 53) ^ 5) j (j + 1) (place ymin ymax yb d.2) ∧ 2 ^ (-1021 : ℤ) ≤ place ymin ymax yb d.2) ≤ c i j ∧
        c i j ≤ data.countP fun d => maybeIn ((1 - 1 / 2 ^ 53) ^ 5) i (i + 1) (place xmin xmax xb d.1) ∧
          maybeIn ((1 - 1 / 2 ^ 53) ^ 5) j (j + 1) (place ymin ymax yb d.2) := by
  obtain ⟨dx, hdx, hcx⟩ := position_double hox hx0 hxb
  obtain ⟨dy, hdy, hcy⟩ := position_double hoy hy0 hyb
  refine ⟨fun i j => data.countP fun d => inBin i (computed double (.fin xmin) (.fin dx) (.fin d.1)) &&
    inBin j (computed double (.fin ymin) (.fin dy) (.fin d.2)), ?_, fun i hi j hj => ⟨?_, ?_⟩⟩
  · rw [histogram2d_counts double double_rounding spacing _ _ (by simp) _ _ xb yb hxb hyb (by simpa using hn) (.fin dx) (.fin dy)
      (by rw [hfx]; exact hdx) (by rw [hfy]; exact hdy), hfx, hfy]
    refine congrArg Except.ok (List.map_congr_left fun i _ => List.map_congr_left fun j _ => ?_)
    rw [List.zip_map', List.countP_map]
    rfl
  · refine List.countP_mono_left fun d hm h => ?_
    obtain ⟨⟨h1, h2⟩, h3, h4⟩ := of_decide_eq_true h
    rw [inBin_between, inBin_between, (hcx _ (hd d hm).1 i (i + 1) hi).1 h1 h2, (hcy _ (hd d hm).2 j (j + 1) hj).1 h3 h4]
    rfl
  · refine List.countP_mono_left fun d hm h => ?_
    rw [inBin_between, inBin_between, Bool.and_eq_true] at h
    exact decide_eq_true ⟨(hcx _ (hd d hm).1 i (i + 1) hi).2 h.1, (hcy _ (hd d hm).2 j (j + 1) hj).2 h.2⟩

/-- C132: the same for the bins in three dimensions. -/
theorem histogram3d_bin_double (spacing : Dbl ℚ → Dbl ℚ) (data : List (ℚ × ℚ × ℚ))
    (hd : ∀ d ∈ data, double d.1 = .fin d.1 ∧ double d.2.1 = .fin d.2.1 ∧ double d.2.2 = .fin d.2.2)
    (rx ry rz : Dbl ℚ × Dbl ℚ) {xmin xmax ymin ymax zmin zmax : ℚ} (hfx : fixRangeF double spacing rx = (.fin xmin, .fin xmax))
    (hfy : fixRangeF double spacing ry = (.fin ymin, .fin ymax)) (hfz : fixRangeF double spacing rz = (.fin zmin, .fin zmax))
    (hox : Ordinary xmin xmax) (hoy : Ordinary ymin ymax) (hoz : Ordinary zmin zmax) {xb yb zb : ℕ} (hx0 : 0 < xb)
    (hy0 : 0 < yb) (hz0 : 0 < zb) (hxb : xb ≤ 2 ^ 31) (hyb : yb ≤ 2 ^ 31) (hzb : zb ≤ 2 ^ 31) (hn : data.length ≤ 2 ^ 31) :
    ∃ c : ℕ → ℕ → ℕ → ℕ, histogram3dF double spacing .ngp (data.map fun d => .fin d.1) (data.map fun d => .fin d.2.1)
        (data.map fun d => .fin d.2.2) rx ry rz xb yb zb none =
          .ok ((List.range xb).map fun i => (List.range yb).map fun j => (List.range zb).map fun k => .fin (c i j k : ℚ)) ∧
      ∀ i < xb, ∀ j < yb, ∀ k < zb, data.countP (fun d =>
          (surelyIn ((1 - 1 / 2 ^ 53) ^ 5) i (i + 1) (place xmin xmax xb d.1) ∧ 2 ^ (-1021 : ℤ) ≤ place xmin xmax xb d.1) ∧
          (surelyIn ((1 - 1 / 2 ^ 53) ^ 5) j (j + 1) (place ymin ymax yb d.2.1) ∧ 2 ^ (-1021 : ℤ) ≤ place ymin ymax yb d.2.1) ∧
          surelyIn ((1 - 1 / 2 ^ 53) ^ 5) k (k + 1) (place zmin zmax zb d.2.2) ∧ 2 ^ (-1021 : ℤ) ≤ place zmin zmax zb d.2.2) ≤ c i j k ∧
        c i j k ≤ data.countP fun d => maybeIn ((1 - 1 / 2 ^ 53) ^ 5) i (i + 1) (place xmin xmax xb d.1) ∧
          maybeIn ((1 - 1 / 2 ^ 53) ^ 5) j (j + 1) (place ymin ymax yb d.2.1) ∧
          maybeIn ((1 - 1 / 2 ^ 53) ^ 5) k (k + 1) (place zmin zmax zb d.2.2) := by
  obtain ⟨dx, hdx, hcx⟩ := position_double hox hx0 hxb
  obtain ⟨dy, hdy, hcy⟩ := position_double hoy hy0 hyb
  obtain ⟨dz, hdz, hcz⟩ := position_double hoz hz0 hzb
  refine ⟨fun i j k => data.countP fun d => inBin i (computed double (.fin xmin) (.fin dx) (.fin d.1)) &&
    (inBin j (computed double (.fin ymin) (.fin dy) (.fin d.2.1)) && inBin k (computed double (.fin zmin) (.fin dz) (.fin d.2.2))), ?_,
    fun i hi j hj k hk => ⟨?_, ?_⟩⟩
  · rw [histogram3d_counts double double_rounding spacing _ _ _ (by simp) (by simp) _ _ _ xb yb zb hxb hyb hzb (by simpa using hn) (.fin dx)
      (.fin dy) (.fin dz) (by rw [hfx]; exact hdx) (by rw [hfy]; exact hdy) (by rw [hfz]; exact hdz), hfx, hfy, hfz]
    refine congrArg Except.ok (List.map_congr_left fun i _ => List.map_congr_left fun j _ => List.map_congr_left fun k _ => ?_)
    rw [List.zip_map', List.zip_map', List.countP_map]
    rfl
  · refine List.countP_mono_left fun d hm h => ?_
    obtain ⟨⟨h1, h2⟩, ⟨h3, h4⟩, h5, h6⟩ := of_decide_eq_true h
    rw [inBin_between, inBin_between, inBin_between, (hcx _ (hd d hm).1 i (i + 1) hi).1 h1 h2, (hcy _ (hd d hm).2.1 j (j + 1) hj).1 h3 h4,
      (hcz _ (hd d hm).2.2 k (k + 1) hk).1 h5 h6]
    rfl
  · refine List.countP_mono_left fun d hm h => ?_
    rw [inBin_between, inBin_between, inBin_between, Bool.and_eq_true, Bool.and_eq_true] at h
    exact decide_eq_true ⟨(hcx _ (hd d hm).1 i (i + 1) hi).2 h.1, (hcy _ (hd d hm).2.1 j (j + 1) hj).2 h.2.1,
      (hcz _ (hd d hm).2.2 k (k + 1) hk).2 h.2.2⟩

/-- The bound of the positions is needed: in the range from 0 to 2 ^ 400 the smallest double is inside of the range, but its position is rounded
to zero, and it is not counted. -/
theorem histogram_lost_double :
    double (2 ^ (-1074 : ℤ)) = .fin (2 ^ (-1074 : ℤ)) ∧ Ordinary 0 (2 ^ 400) ∧
    surelyIn ((1 - 1 / 2 ^ 53 : ℚ) ^ 5) 0 1 (place 0 (2 ^ 400) 1 (2 ^ (-1074 : ℤ))) ∧
    histogramF double spacingDouble .ngp [.fin (2 ^ (-1074 : ℤ))] (.fin 0, .fin (2 ^ 400)) 1 none = .ok [.fin 0] := by
  refine ⟨by decide +kernel, ⟨by decide +kernel, by decide +kernel, by decide +kernel, by decide +kernel⟩, by decide +kernel, by decide +kernel⟩

theorem ordinary_example : Ordinary 0 3 ∧ Ordinary 2 (-1) ∧ Ordinary 1 4 :=
  ⟨⟨by decide +kernel, by decide +kernel, by decide +kernel, by decide +kernel⟩, ⟨by decide +kernel, by decide +kernel, by decide +kernel, by decide +kernel⟩,
    ⟨by decide +kernel, by decide +kernel, by decide +kernel, by decide +kernel⟩⟩

example := histogram_bin_double spacingDouble [1 / 2, 7 / 4, 5, -1] (by decide +kernel) (.fin 0, .fin 3) (by decide +kernel)
  ordinary_example.1 (bins := 4) (by norm_num) (by norm_num) (by decide)
example := histogram2d_bin_double spacingDouble [(1 / 2, 1), (7 / 4, 1 / 8)] (by decide +kernel) (.fin 0, .fin 3) (.fin 2, .fin (-1))
  (by decide +kernel) (by decide +kernel) ordinary_example.1 ordinary_example.2.1 (xb := 4) (yb := 5) (by norm_num) (by norm_num) (by norm_num)
  (by norm_num) (by decide)
example := histogram3d_bin_double spacingDouble [(1 / 2, 1, 3), (7 / 4, 1 / 8, 2)] (by decide +kernel) (.fin 0, .fin 3) (.fin 2, .fin (-1))
  (.fin 1, .fin 4) (by decide +kernel) (by decide +kernel) (by decide +kernel) ordinary_example.1 ordinary_example.2.1 ordinary_example.2.2
  (xb := 4) (yb := 5) (zb := 6) (by norm_num) (by norm_num) (by norm_num) (by norm_num) (by norm_num) (by norm_num) (by decide)

/-- Particles in the middle of a bin are surely counted there. -/
example : surelyIn ((1 - 1 / 2 ^ 53 : ℚ) ^ 5) 2 3 (place 0 3 4 (7 / 4)) ∧ (2 : ℚ) ^ (-1021 : ℤ) ≤ place 0 3 4 (7 / 4) := by decide +kernel

end Postpic.Props
