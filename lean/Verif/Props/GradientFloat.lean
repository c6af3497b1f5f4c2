import Verif.Lemmas.GradientFloat
import Verif.Props.Calculus
import Verif.Props.CalculusFloat

/-!
# Rounding errors of derivatives
-/

set_option autoImplicit false
set_option linter.unusedSectionVars false

namespace Postpic.Props

open Postpic Postpic.Axes Postpic.Fields Postpic.Histogram Postpic.Statistics Postpic.Spec

section
variable {K : Type} [_root_.Field K] [LinearOrder K] [IsStrictOrderedRing K] [FloorRing K] {rnd : K → Dbl K} {u : K}

/-! ## C127: derivatives are accurate despite rounding -/

/-- C127: the derivative, compared with the exact one (`gradient_partial`). At the border the relative error is at most six roundings. Inside
the error is at most 18 roundings of the sum of the absolute values over the distances. -/
theorem derivative_rounded (A : Accurate rnd u) (hu : 9 * u ≤ 1 / 2) (f : Field K K) (hf : f.Sound) (a : ℤ) (k : ℕ) (ax : Axis K)
    (ha : pyIdx f.shape.length a = some k) (hax : f.axes[k]? = some ax) (h2 : 2 ≤ ax.len) :
    ∃ r rF, f.derivative a = .ok r ∧ (f.mapValues .fin).derivativeF rnd a = .ok rF ∧ rF.shape = r.shape ∧ rF.axes = r.axes ∧
      rF.name = r.name ∧ rF.unit = r.unit ∧ rF.ats = r.ats ∧ rF.tao = r.tao ∧
      ∀ idx, InBounds f.shape idx → ∃ z, rF.matrix.at' idx = .fin z ∧
        (∀ i, idx[k]? = some i → i = 0 ∨ i + 1 = ax.len → |z - r.matrix.at' idx| ≤ 6 * u * |r.matrix.at' idx|) ∧
        ∀ i x0 x1 x2, idx[k]? = some (i + 1) → ax.grid[i]? = some x0 → ax.grid[i + 1]? = some x1 → ax.grid[i + 2]? = some x2 →
          |z - r.matrix.at' idx| ≤ 18 * u * ((|f.matrix.at' (idx.set k i)| + |f.matrix.at' idx|) / |x1 - x0| +
            (|f.matrix.at' idx| + |f.matrix.at' (idx.set k (i + 2))|) / |x2 - x1|) := by
  have hu0 := A.nonneg
  have hu1 : u < 1 := by linarith
  have hv := hf.valid ax (List.mem_of_getElem? hax)
  have hn := grid_nodup hv
  have h2' : 2 ≤ ax.grid.length := h2
  have hd := derivativeF_ok (rnd := rnd) (mapValues_sound hf Dbl.fin) ha hax h2
  refine ⟨_, _, derivative_ok hf ha hax h2, hd, rfl, rfl, rfl, rfl, rfl, rfl, ?_⟩
  intro idx hidx
  have hk : k < idx.length := by rw [hidx.1]; exact pyIdx_lt ha
  have hs : f.shape[k]? = some ax.grid.length := by
    rw [← hf.ok.lengths, List.getElem?_map, hax]
    rfl
  have hi : idx.getD k 0 < ax.grid.length := by
    rw [List.getD_eq_getElem _ _ hk]
    exact hidx.2 k _ _ (List.getElem?_eq_getElem hk) hs
  have hself : ∀ {i : ℕ}, idx[k]? = some i → idx.set k i = idx := by
    intro i h
    obtain ⟨h1, rfl⟩ := List.getElem?_eq_some_iff.1 h
    exact List.set_getElem_self h1
  obtain ⟨z, z1, z2, z3⟩ := gradientF_error A hu hv h2' (fun j => f.matrix.at' (idx.set k j)) _ hi
  refine ⟨z, z1, fun i h h' => z2 ?_, fun i x0 x1 x2 h h0 h1 h2 => ?_⟩
  · rw [show idx.getD k 0 = i from getD_of_get h]
    exact h'
  · have := z3 i x0 x1 x2 (getD_of_get h) h0 h1 h2
    simp only [hself h] at this
    exact this

/-- C127: the staggered derivative has a relative error of at most six roundings. -/
theorem derivative_stagger_rounded (A : Accurate rnd u) (hu : 3 * u ≤ 1 / 2) (spl : Splines K) (f : Field K K) (hf : f.Sound) (a : ℤ)
    (r : Field K K) (hr : f.derivativeStagger spl a = .ok r) :
    ∃ rF, (f.mapValues .fin).derivativeStaggerF rnd spl a = .ok rF ∧ rF.shape = r.shape ∧ rF.axes = r.axes ∧
      rF.name = r.name ∧ rF.unit = r.unit ∧ rF.ats = r.ats ∧ rF.tao = r.tao ∧
      ∀ idx, ∃ z, rF.matrix.at' idx = .fin z ∧ |z - r.matrix.at' idx| ≤ 6 * u * |r.matrix.at' idx| := by
  have hu0 := A.nonneg
  obtain ⟨rF, h1, h2, h3, h4, h5, h6, h7, h8⟩ := derivativeStaggerF_ok A (by linarith) hf hr
  refine ⟨rF, h1, h2, h3, h4, h5, h6, h7, fun idx => ?_⟩
  obtain ⟨z, z1, z2⟩ := h8 idx
  refine ⟨z, z1, ?_⟩
  have := within_error hu0 (by push_cast; linarith) z2
  push_cast at this
  linarith

/-- C127: in particular the computed staggered derivative has the right sign, and is 0 exactly if the samples are equal. -/
theorem derivative_stagger_sign (A : Accurate rnd u) (hu : 6 * u < 1) (spl : Splines K) (f : Field K K) (hf : f.Sound) (a : ℤ)
    (r : Field K K) (hr : f.derivativeStagger spl a = .ok r) :
    ∃ rF, (f.mapValues .fin).derivativeStaggerF rnd spl a = .ok rF ∧ ∀ idx, ∃ z, rF.matrix.at' idx = .fin z ∧
      (0 < z ↔ 0 < r.matrix.at' idx) ∧ (z < 0 ↔ r.matrix.at' idx < 0) ∧ (z = 0 ↔ r.matrix.at' idx = 0) := by
  have hu0 := A.nonneg
  have hu1 : u < 1 := by linarith
  obtain ⟨rF, h1, _, _, _, _, _, _, h8⟩ := derivativeStaggerF_ok A hu1 hf hr
  refine ⟨rF, h1, fun idx => ?_⟩
  obtain ⟨z, z1, t, t1, -, rfl⟩ := h8 idx
  have ht : 0 < t := lt_of_lt_of_le (pow_pos (by linarith) 3) t1
  exact ⟨_, z1, mul_pos_iff_of_pos_right ht, by rw [mul_neg_iff]; constructor <;> [rintro (⟨_, h⟩ | ⟨h, _⟩); intro h] <;> [linarith; exact h; exact Or.inr ⟨h, ht⟩], by rw [mul_eq_zero, or_iff_left ht.ne']⟩

end

/-! ### Examples -/

/-- A constant on the points 0.1, 0.2, 0.5, as doubles. -/
def fieldThree : Field ℚ ℚ := ⟨"f", "", ⟨[3], fun _ => 3⟩,
  [⟨"x", "", [1 / 20, 3 / 20, 7 / 20, 13 / 20], [tenth, 2 * tenth, 1 / 2], (1 / 20, 13 / 20)⟩], [some false], [none]⟩

/-- The errors are real: the computed derivative of a constant is not 0. -/
theorem derivative_constant_rounded :
    (fieldThree.derivative 0).map (fun r => r.matrix.at' [1]) = .ok 0 ∧
    ((fieldThree.mapValues .fin).derivativeF nearest53 0).map (fun r => r.matrix.at' [1]) = .ok (.fin (1 / 2 ^ 47)) := by
  decide +kernel

example := derivative_rounded nearest53_accurate (by norm_num) fieldSquare fieldSquare_sound 0 0 unevenAxis (by decide) rfl (by decide)
example := derivative_rounded nearest53_accurate (by norm_num) field43 field43_sound (-1) 1 (uniformAxis 0 6 3) (by decide) rfl (by decide)
example : (field43.derivativeStagger midSplines 0).toOption.isSome = true := by decide +kernel

end Postpic.Props
