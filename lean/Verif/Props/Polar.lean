import Mathlib.Analysis.SpecialFunctions.Trigonometric.Deriv
import Verif.Lemmas.Polar

/-!
# C46: polar coordinates
-/

set_option autoImplicit false

namespace Postpic.Props

open Postpic Postpic.Polar

/-- Converting cartesian coordinates to polar ones and back returns the coordinates (also at the
origin). The radius is the distance from the origin and the angle is in the principal range. -/
theorem polar_of_cartesian (x y theta r : ℝ) (h : linear2polar x y = (theta, r)) :
    polar2linear theta r = (x, y) ∧ r ^ 2 = x ^ 2 + y ^ 2 ∧ 0 ≤ r ∧ -Real.pi < theta ∧
      theta ≤ Real.pi := by
  simp only [linear2polar, Prod.mk.injEq] at h
  obtain ⟨rfl, rfl⟩ := h
  refine ⟨?_, Real.sq_sqrt (by positivity), Real.sqrt_nonneg _, arctan2_range x y⟩
  simp only [polar2linear, radius_cos, radius_sin]

/-- Converting polar coordinates, with a positive radius and an angle in the principal range, to
cartesian ones and back returns the coordinates. -/
theorem cartesian_of_polar (theta r x y : ℝ) (hr : 0 < r) (h1 : -Real.pi < theta)
    (h2 : theta ≤ Real.pi) (h : polar2linear theta r = (x, y)) : linear2polar x y = (theta, r) := by
  simp only [polar2linear, Prod.mk.injEq] at h
  obtain ⟨rfl, rfl⟩ := h
  simp only [linear2polar, Prod.mk.injEq]
  refine ⟨arctan2_unique theta r hr h1 h2, ?_⟩
  have : (r * Real.cos theta) ^ 2 + (r * Real.sin theta) ^ 2 = r ^ 2 := by
    nlinarith [Real.sin_sq_add_cos_sq theta]
  rw [this, Real.sqrt_sq hr.le]

/-- A point in the second quadrant and a point on the negative axis. -/
example : linear2polar (-1) 0 = (Real.pi, 1) ∧ polar2linear (Real.pi / 2) 2 = (0, 2) := by
  constructor
  · simp [linear2polar, arctan2]
  · simp [polar2linear]

/-- The stated Jacobian matrix contains the partial derivatives: the rows belong to `x` and `y`, the
columns to the angle and the radius. -/
theorem polar_jacobian (theta r : ℝ) : ∃ a b c d : ℝ,
    polar2linearJac theta r = [[a, b], [c, d]] ∧
    HasDerivAt (fun t => (polar2linear t r).1) a theta ∧
    HasDerivAt (fun s => (polar2linear theta s).1) b r ∧
    HasDerivAt (fun t => (polar2linear t r).2) c theta ∧
    HasDerivAt (fun s => (polar2linear theta s).2) d r := by
  refine ⟨_, _, _, _, rfl, ?_, ?_, ?_, ?_⟩
  · simpa [polar2linear] using (Real.hasDerivAt_cos theta).const_mul r
  · simpa [polar2linear] using (hasDerivAt_id r).mul_const (Real.cos theta)
  · simpa [polar2linear] using (Real.hasDerivAt_sin theta).const_mul r
  · simpa [polar2linear] using (hasDerivAt_id r).mul_const (Real.sin theta)

/-- `jac_det` of two rows is the absolute value of the determinant. -/
theorem jac_det_two (a b c d : ℝ) : jacDet (.rows [[a, b], [c, d]]) = .ok [|a * d - b * c|] := by
  have e : squareMatrix [[a, b], [c, d]] =
      .ok (Matrix.of fun i j => (([[a, b], [c, d]] : List (List ℝ)).getD i []).getD j 0) := rfl
  simp only [jacDet, e, bind, Except.bind, pure, Except.pure]
  have := Matrix.det_fin_two
    (Matrix.of fun (i j : Fin 2) => (([[a, b], [c, d]] : List (List ℝ)).getD i []).getD j 0)
  simp only [Matrix.of_apply, List.getD_eq_getElem?_getD, Fin.val_zero, Fin.val_one] at this
  simp only [List.getD_eq_getElem?_getD]
  exact congrArg (fun t => Except.ok [|t|]) this

/-- `jac_det` of three rows is the absolute value of the triple product of the rows. -/
theorem jac_det_three (a b c d e f g h i : ℝ) :
    jacDet (.rows [[a, b, c], [d, e, f], [g, h, i]]) =
      .ok [|a * (e * i - f * h) - b * (d * i - f * g) + c * (d * h - e * g)|] := by
  have eq : squareMatrix [[a, b, c], [d, e, f], [g, h, i]] =
      .ok (Matrix.of fun j k =>
        (([[a, b, c], [d, e, f], [g, h, i]] : List (List ℝ)).getD j []).getD k 0) := rfl
  simp only [jacDet, eq, bind, Except.bind, pure, Except.pure]
  have := Matrix.det_fin_three
    (Matrix.of fun (j k : Fin 3) =>
      (([[a, b, c], [d, e, f], [g, h, i]] : List (List ℝ)).getD j []).getD k 0)
  simp only [Matrix.of_apply, List.getD_eq_getElem?_getD, Fin.val_zero, Fin.val_one, Fin.val_two]
    at this
  simp only [List.getD_eq_getElem?_getD]
  refine congrArg (fun t => Except.ok [|t|]) (this.trans ?_)
  show a * e * i - a * f * h - b * d * i + b * f * g + c * d * h - c * e * g = _
  ring

/-- A derivative with respect to a single coordinate: its absolute value. -/
theorem jac_det_one (d : ℝ) : jacDet (.scalar [d]) = .ok [|d|] := rfl

/-- The stated determinant is the absolute value of the determinant of the stated Jacobian matrix if
the radius is not negative. Missing: it has the wrong sign for negative radii, see
`polar_jacdet_violated`. -/
theorem polar_jacdet_partial (theta r : ℝ) (h : 0 ≤ r) :
    jacDet (.rows (polar2linearJac theta r)) = .ok [polar2linearJacdet theta r] := by
  simp only [polar2linearJac, jac_det_two, polar2linearJacdet]
  have e : -r * Real.sin theta * Real.sin theta - Real.cos theta * (r * Real.cos theta) = -r := by
    nlinarith [Real.sin_sq_add_cos_sq theta]
  rw [e, abs_neg, abs_of_nonneg h]

example : jacDet (.rows (polar2linearJac 1 3)) = .ok [3] := polar_jacdet_partial 1 3 (by norm_num)

/-- For negative radii, which `topolar` accepts in its extent, the stated determinant is the negative of
the absolute determinant. -/
theorem polar_jacdet_violated :
    ¬ ∀ theta r : ℝ, jacDet (.rows (polar2linearJac theta r)) = .ok [polar2linearJacdet theta r] := by
  intro h
  have := h 0 (-1)
  simp only [polar2linearJac, jac_det_two, polar2linearJacdet] at this
  norm_num at this

end Postpic.Props
