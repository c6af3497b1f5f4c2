import Verif.Lemmas.IntegralsDouble
import Verif.Props.GradientDouble
import Verif.Props.IntegralDouble

/-!
# Integrals along any dimensions with IEEE doubles
-/

set_option autoImplicit false

namespace Postpic.Props

open Postpic Postpic.Axes Postpic.Fields Postpic.Histogram Postpic.Statistics Postpic.Spec

/-! ## C139: integrals along several dimensions with doubles -/

/-- C139: the fast method with doubles, along any dimensions. If the sizes of the cells are 0 or have absolute values between `2^-c` and `2^c`, and
the samples are doubles which are 0 or between `2^-b` and `2^b`, nothing underflows or overflows: the error is at most `d + 2` roundings per dimension
of the integral of the absolute values. -/
theorem integrals_fast_double {add : List (Dbl ℚ) → Dbl ℚ} {n d : ℕ} (S : Summation double add n d) (hn64 : n ≤ 2 ^ 64) (f : Field ℚ ℚ)
    (hf : f.Sound) (hn : f.shape.prod ≤ n) (b c : ℤ) (hb0 : 0 ≤ b) (hc0 : 0 ≤ c)
    (hv : ∀ idx, InBounds f.shape idx → double (f.matrix.at' idx) = .fin (f.matrix.at' idx) ∧ Moderate (-b) b (f.matrix.at' idx))
    (hcell : ∀ ax ∈ f.axes, ∀ x ∈ cellSizes ax, Moderate (-c) c x) (dims : List ℕ) (hd : ∀ i ∈ dims, i < f.shape.length)
    (hbc : b + dims.dedup.length * (c + 65) ≤ 1000) (hd52 : d ≤ 2 ^ 52) (hk : dims.dedup.length * (d + 2) ≤ 2 ^ 52) :
    ∃ r rF, f.integrateFast (dims.map Int.ofNat) = .ok r ∧ (f.mapValues .fin).integrateFastF double add (dims.map Int.ofNat) = .ok rF ∧
      rF.shape = r.shape ∧ rF.axes = r.axes ∧ rF.ats = r.ats ∧ rF.tao = r.tao ∧ rF.name = r.name ∧ rF.unit = r.unit ∧
      ∀ idx, InBounds r.shape idx → ∃ y, rF.matrix.at' idx = .fin y ∧ double y = .fin y ∧
        |y - r.matrix.at' idx| ≤ (dims.dedup.length * (d + 2) : ℕ) / 2 ^ 52 * integralAbs f dims idx := by
  have hk' : ((dims.dedup.length * (d + 2) : ℕ) : ℚ) * (1 / 2 ^ 53) ≤ 1 / 2 := by
    have h1 : ((dims.dedup.length * (d + 2) : ℕ) : ℚ) ≤ 2 ^ 52 := by exact_mod_cast hk
    have := mul_le_mul_of_nonneg_right h1 (show (0 : ℚ) ≤ 1 / 2 ^ 53 by norm_num)
    refine this.trans ?_
    norm_num
  obtain ⟨r, q, h1, h2, h3, h4, h5, h6, h7, h8, h9⟩ := integrate_fast_rounded digits53_accurate (by norm_num) (add53_summation S) f hf hn dims hd hk'
  have hF := mapValues_sound hf Dbl.fin
  obtain ⟨M, hM, hord⟩ := integrateFastF_order (f.mapValues Dbl.fin) (L := dims) hd
  obtain ⟨p, p', p1, p2, p3⟩ := fastLoopF_agree S hn64 hd52 hc0 M hF hF (b := b)
    ⟨rfl, rfl, rfl, rfl, rfl, rfl, fun idx hidx => ⟨f.matrix.at' idx, rfl, rfl, hv idx hidx⟩⟩
    (fun s hs => (le_prod hf.nonempty hs).trans hn) hcell hb0 (by rw [hM.length_eq]; exact hbc) (hM.nodup_iff.2 (List.nodup_dedup dims))
    (fun i hi => hd i (List.mem_dedup.1 (hM.mem_iff.1 hi)))
  rw [hord, p2] at h2
  cases h2
  refine ⟨r, p, h1, by rw [hord, p1], p3.shape.trans h3, p3.axes.trans h4, p3.ats.trans h5, p3.tao.trans h6, p3.name.trans h7, p3.unit.trans h8,
    fun idx hidx => ?_⟩
  obtain ⟨y, y1, y2⟩ := h9 idx hidx
  obtain ⟨v, v1, v2, v3, -⟩ := p3.values idx (by rw [p3.shape, h3]; exact hidx)
  rw [v2] at y1
  cases y1
  refine ⟨_, v1, v3, y2.trans (le_of_eq ?_)⟩
  ring

/-- C139: the other method with doubles: the samples are multiplied with the sizes of the cells first. -/
theorem integrals_constant_double {add : List (Dbl ℚ) → Dbl ℚ} {n d : ℕ} (S : Summation double add n d) (hn64 : n ≤ 2 ^ 64) (spl : Splines ℚ)
    (f : Field ℚ ℚ) (hf : f.Sound) (h3 : f.shape.length ≤ 3) (hn : f.shape.prod ≤ n) (b c : ℤ) (hb0 : 0 ≤ b) (hc0 : 0 ≤ c)
    (hv : ∀ idx, InBounds f.shape idx → double (f.matrix.at' idx) = .fin (f.matrix.at' idx) ∧ Moderate (-b) b (f.matrix.at' idx))
    (hcell : ∀ ax ∈ f.axes, ∀ x ∈ cellSizes ax, Moderate (-c) c x) (dims : List ℕ) (hd : ∀ i ∈ dims, i < f.shape.length)
    (hbc : b + dims.dedup.length * c ≤ 950) (hk : 2 * dims.dedup.length + d ≤ 2 ^ 52) :
    ∃ r rF, f.integrateConstant spl (dims.map Int.ofNat) = .ok r ∧
      (f.mapValues .fin).integrateConstantF double add spl (dims.map Int.ofNat) = .ok rF ∧
      rF.shape = r.shape ∧ rF.axes = r.axes ∧ rF.ats = r.ats ∧ rF.tao = r.tao ∧ rF.name = r.name ∧ rF.unit = r.unit ∧
      ∀ idx, InBounds r.shape idx → ∃ y, rF.matrix.at' idx = .fin y ∧
        |y - r.matrix.at' idx| ≤ (2 * dims.dedup.length + d : ℕ) / 2 ^ 52 * integralAbs f dims idx := by
  have hk' : ((2 * dims.dedup.length + d : ℕ) : ℚ) * (1 / 2 ^ 53) ≤ 1 / 2 := by
    have h1 : ((2 * dims.dedup.length + d : ℕ) : ℚ) ≤ 2 ^ 52 := by exact_mod_cast hk
    have := mul_le_mul_of_nonneg_right h1 (show (0 : ℚ) ≤ 1 / 2 ^ 53 by norm_num)
    refine this.trans ?_
    norm_num
  obtain ⟨r, q, h1, h2, h3', h4, h5, h6, h7, h8, h9⟩ :=
    integrate_constant_rounded digits53_accurate (by norm_num) (add53_summation S) spl f hf h3 hn dims hd hk'
  obtain ⟨p, p', p1, p2, p3, p4, p5, p6, p7, p8, p9⟩ := integrateConstantF_agree S hn64 (by omega) spl (mapValues_sound hf Dbl.fin) h3 hn hc0 hcell hb0
    hbc hd (fun idx hidx => ⟨f.matrix.at' idx, rfl, hv idx hidx⟩)
  rw [p2] at h2
  cases h2
  refine ⟨r, p, h1, p1, p3.trans h3', p4.trans h4, p5.trans h5, p6.trans h6, p7.trans h7, p8.trans h8, fun idx hidx => ?_⟩
  obtain ⟨y, y1, y2⟩ := h9 idx hidx
  refine ⟨y, by rw [p9 idx (by rw [p3, h3']; exact hidx), y1], y2.trans (le_of_eq ?_)⟩
  ring

/-! ### Examples -/

theorem field43_values_moderate (idx : List ℕ) (h : InBounds field43.shape idx) :
    double (field43.matrix.at' idx) = .fin (field43.matrix.at' idx) ∧ Moderate (-10) 10 (field43.matrix.at' idx) := by
  have h : InBounds [4, 3] idx := h
  obtain ⟨h1, h2⟩ := h
  obtain ⟨i, j, rfl⟩ := List.length_eq_two.1 h1
  have hi := h2 0 i 4 rfl rfl
  have hj := h2 1 j 3 rfl rfl
  have key : ∀ i < 4, ∀ j < 3, double (field43.matrix.at' [i, j]) = .fin (field43.matrix.at' [i, j]) ∧
      Moderate (-10) 10 (field43.matrix.at' [i, j]) := by decide +kernel
  exact key i hi j hj

example := integrals_fast_double (chain_summation double 12) (by norm_num) field43 field43_sound (by decide) 10 10 (by decide) (by decide)
  field43_values_moderate (by decide +kernel) [0, 1] (by decide) (by decide) (by norm_num) (by decide)

example := integrals_constant_double (chain_summation double 12) (by norm_num) midSplines field43 field43_sound (by decide) (by decide) 10 10 (by decide)
  (by decide) field43_values_moderate (by decide +kernel) [0, 1] (by decide) (by decide) (by decide)

/-- A field with a single cell of the size `h` times `k`. -/
def fieldCell (h k v : ℚ) : Field ℚ (Dbl ℚ) :=
  ⟨"f", "", ⟨[1, 1], fun _ => .fin v⟩, [⟨"x", "", [0, h], [h / 2], (0, h)⟩, ⟨"y", "", [0, k], [k / 2], (0, k)⟩], [some false, some false], [none, none]⟩

/-- The limits on the sizes are needed: the integral over a cell of size `2^-900` times `2^900` is that of the sample, but it is computed as 0 or as
infinity, depending on which axis comes first. -/
theorem integrals_double_limits :
    ((fieldCell (1 / 2 ^ 900) (2 ^ 900) (1 / 2 ^ 200)).integrateFastF double (fun l => sumF double l (chain l.length)) [0, 1]).map (fun r => r.matrix.at' []) =
      .ok (.fin (1 / 2 ^ 200)) ∧
    ((fieldCell (2 ^ 900) (1 / 2 ^ 900) (1 / 2 ^ 200)).integrateFastF double (fun l => sumF double l (chain l.length)) [0, 1]).map (fun r => r.matrix.at' []) =
      .ok (.fin 0) ∧
    ((fieldCell (1 / 2 ^ 900) (2 ^ 900) (2 ^ 200)).integrateFastF double (fun l => sumF double l (chain l.length)) [0, 1]).map (fun r => r.matrix.at' []) =
      .ok (.inf false) := by
  decide +kernel

end Postpic.Props
