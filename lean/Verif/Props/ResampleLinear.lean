import Verif.Lemmas.ResampleLinear
import Verif.Props.FieldLinear
import Verif.Props.MapGrid

/-!
# Resampling is linear (C115)
-/

set_option linter.unusedSectionVars false

set_option autoImplicit false

namespace Postpic.Props

open Postpic Postpic.Axes Postpic.Fields Postpic.Spec Postpic.Interp

noncomputable section

/-- C115: resampling real data on other axes is linear: for splines of any order, all modes at the borders, any transform of the coordinates, with
and without the factor which keeps the integral. -/
theorem resample_linear (order : ℕ) (mode : Mode) (newaxes : List (Axis ℝ)) (transform : Option ((List ℝ → List ℝ) × (List ℝ → ℝ)))
    (preserveIntegral : Bool) (a b : ℝ) {f g h : Fields.Field ℝ ℝ} (hc : Combination a b f g h) :
    LinearFor (fun x => x.mapCoordinates (splineSample order mode 0) newaxes transform preserveIntegral) a b f g h :=
  mapCoordinates_comb order mode hc newaxes transform preserveIntegral

/-- C115: so is the transformation to polar coordinates. -/
theorem topolar_linear (spl : Splines ℝ) (order : ℕ) (mode : Mode) (extent : Option ((ℝ × ℝ) × Option (ℝ × ℝ))) (shape : Option (ℤ × ℤ))
    (angleoffset : ℝ) (preserveIntegral : Bool) (a b : ℝ) {f g h : Fields.Field ℝ ℝ} (hc : Combination a b f g h) :
    LinearFor (fun x => x.topolar spl (splineSample order mode 0) extent shape angleoffset preserveIntegral) a b f g h := by
  have e : ∀ x : Fields.Field ℝ ℝ, SameAxes f x → x.topolar spl (splineSample order mode 0) extent shape angleoffset preserveIntegral =
      (do
        let e ← f.polarExtent extent
        let s ← f.polarShape e shape
        let thetaGrid ← linspaceInt e.1.1 e.1.2 s.1
        let theta ← mkAxis spl { name := "theta", unit := "rad", grid := some thetaGrid }
        let thetaOffset ← mkAxis spl { name := "theta", unit := "rad", grid := some (thetaGrid.map (· - angleoffset)) }
        let a0 ← pyGet f.axes 0
        let rname := if a0.name.startsWith "k" then "k" else "r"
        let rGrid ← linspaceInt e.2.1 e.2.2 s.2
        let r ← mkAxis spl { name := rname, unit := a0.unit, grid := some rGrid }
        let ret ← x.mapCoordinates (splineSample order mode 0) [thetaOffset, r] (some (polarTransform, polarJacdet)) preserveIntegral
        ret.setFirstAxis theta : Res (Fields.Field ℝ ℝ)) := by
    intro x hx
    obtain ⟨n, u, ⟨s, v⟩, ax, ats, tao⟩ := f
    obtain ⟨n', u', ⟨s', v'⟩, ax', ats', tao'⟩ := x
    obtain ⟨h1, h2, h3, h4⟩ := hx
    simp only at h1 h2 h3 h4
    subst h1 h2 h3 h4
    rfl
  have same : ∀ {A : Type} (z : Res A) (k : A → Fields.Field ℝ ℝ → Res (Fields.Field ℝ ℝ)),
      (∀ y, LinearFor (k y) a b f g h) → LinearFor (fun x => z >>= fun y => k y x) a b f g h := by
    intro A z k hk
    cases z with
    | error e => exact ⟨rfl, rfl⟩
    | ok y => exact hk y
  have main := same (f.polarExtent extent) _ fun e => same (f.polarShape e shape) _ fun s => same (linspaceInt e.1.1 e.1.2 s.1) _ fun thetaGrid =>
    same (mkAxis spl { name := "theta", unit := "rad", grid := some thetaGrid }) _ fun theta =>
    same (mkAxis spl { name := "theta", unit := "rad", grid := some (thetaGrid.map (· - angleoffset)) }) _ fun thetaOffset =>
    same (pyGet f.axes 0) _ fun a0 => same (linspaceInt e.2.1 e.2.2 s.2) _ fun rGrid =>
    same (mkAxis spl { name := if a0.name.startsWith "k" then "k" else "r", unit := a0.unit, grid := some rGrid }) _ fun r =>
    linearFor_bind (U := fun ret => ret.setFirstAxis theta)
      (resample_linear order mode [thetaOffset, r] (some (polarTransform, polarJacdet)) preserveIntegral a b hc) fun F G H hc => by
        have e1 : G.shape = F.shape := hc.first.shape
        have e2 : H.shape = F.shape := hc.second.shape
        unfold LinearFor Field.setFirstAxis
        beta_reduce
        rw [e1, e2, hc.first.axes, hc.second.axes]
        cases pyGet F.shape 0 with
        | error e => exact ⟨rfl, rfl⟩
        | ok n =>
          simp only [bind, Except.bind]
          by_cases hn : n ≠ theta.len
          · simp only [if_pos hn]
            exact ⟨rfl, rfl⟩
          · simp only [if_neg hn]
            cases pySet F.axes 0 theta with
            | error e => exact ⟨rfl, rfl⟩
            | ok axes =>
              exact ⟨_, _, rfl, rfl, ⟨hc.first.shape, rfl, hc.first.ats, hc.first.tao⟩, ⟨hc.second.shape, rfl, hc.second.ats, hc.second.tao⟩,
                hc.values⟩
  unfold LinearFor at main ⊢
  beta_reduce
  rw [e f ⟨rfl, rfl, rfl, rfl⟩, e g hc.first, e h hc.second]
  exact main

end

section

variable {R K V : Type} [_root_.Field K] [LinearOrder K] [AddCommGroup V] [Module K V] [Ring R] [Module R V] [SMulCommClass K R V]

/-- C115: so is the change of the coordinates of one axis. -/
theorem map_axis_grid_linear (spl : Splines K) (eps : K) (axis : ℕ) (transform : K → K) (preserveIntegral : Bool)
    (jacobianFunc : Option (K → Option K)) (a b : R) {f g h : Fields.Field K V} (hc : Combination a b f g h) :
    LinearFor (fun x => x.mapAxisGrid spl eps axis transform preserveIntegral jacobianFunc) a b f g h := by
  obtain ⟨n, u, ⟨s, v⟩, ax, ats, tao⟩ := f
  obtain ⟨n', u', ⟨s', v'⟩, ax', ats', tao'⟩ := g
  obtain ⟨n'', u'', ⟨s'', v''⟩, ax'', ats'', tao''⟩ := h
  obtain ⟨⟨h1, h2, h3, h4⟩, ⟨k1, k2, k3, k4⟩, hv⟩ := hc
  simp only [Field.shape] at h1 h2 h3 h4 k1 k2 k3 k4 hv
  subst h1 h2 h3 h4 k1 k2 k3 k4
  have same : ∀ {A : Type} (z : Res A) (k k' k'' : A → Res (Fields.Field K V)),
      (∀ y, match k y with
        | .error e => k' y = .error e ∧ k'' y = .error e
        | .ok F => ∃ G H, k' y = .ok G ∧ k'' y = .ok H ∧ Combination a b F G H) →
      match z >>= k with
        | .error e => z >>= k' = .error e ∧ z >>= k'' = .error e
        | .ok F => ∃ G H, z >>= k' = .ok G ∧ z >>= k'' = .ok H ∧ Combination a b F G H := by
    intro A z k k' k'' hk
    cases z with
    | error e => exact ⟨rfl, rfl⟩
    | ok y => exact hk y
  unfold LinearFor Field.mapAxisGrid Field.dims Field.shape
  cases preserveIntegral with
  | false =>
    simp only [Bool.false_eq_true, if_false, pure_bind]
    refine same _ _ _ _ fun x => same _ _ _ _ fun y => same _ _ _ _ fun axes => ?_
    exact ⟨_, _, rfl, rfl, ⟨rfl, rfl, rfl, rfl⟩, ⟨rfl, rfl, rfl, rfl⟩, hv⟩
  | true =>
    simp only [if_true]
    by_cases hd : (if 0 ∈ s'' then -1 else (s''.length : ℤ)) ≤ axis
    · simp only [if_pos hd]
      exact ⟨rfl, rfl⟩
    simp only [if_neg hd, bind_assoc, pure_bind]
    refine same _ _ _ _ fun x => ?_
    by_cases hl : s''[axis]? ≠ some x.len
    · simp only [if_pos hl]
      exact ⟨rfl, rfl⟩
    simp only [if_neg hl, bind_assoc, pure_bind]
    refine same _ _ _ _ fun jac => same _ _ _ _ fun x => same _ _ _ _ fun y => same _ _ _ _ fun axes => ?_
    refine ⟨_, _, rfl, rfl, ⟨rfl, rfl, rfl, rfl⟩, ⟨rfl, rfl, rfl, rfl⟩, fun idx hi => ?_⟩
    simp only
    rw [hv idx hi, smul_add, smul_comm _ a, smul_comm _ b]

end

/-- Half the grid points, at positions between the old ones, for fields with different values. -/
example : ∃ f g h : Fields.Field ℝ ℝ, Combination 2 (-1) f g h ∧ f.matrix.at' [1] = 5 ∧ g.matrix.at' [1] = 3 ∧ h.matrix.at' [1] = 7 :=
  ⟨⟨"f", "", ⟨[4], fun idx => 5 * idx.getD 0 0⟩, [⟨"x", "", [0, 1, 2, 3, 4], [1 / 2, 3 / 2, 5 / 2, 7 / 2], (0, 4)⟩], [some false], [none]⟩,
    ⟨"g", "", ⟨[4], fun idx => 3 * idx.getD 0 0⟩, [⟨"x", "", [0, 1, 2, 3, 4], [1 / 2, 3 / 2, 5 / 2, 7 / 2], (0, 4)⟩], [some false], [none]⟩,
    ⟨"h", "", ⟨[4], fun idx => 7 * idx.getD 0 0⟩, [⟨"x", "", [0, 1, 2, 3, 4], [1 / 2, 3 / 2, 5 / 2, 7 / 2], (0, 4)⟩], [some false], [none]⟩,
    ⟨⟨rfl, rfl, rfl, rfl⟩, ⟨rfl, rfl, rfl, rfl⟩, fun idx _ => by simp only [smul_eq_mul]; ring⟩, by simp, by simp, by simp⟩

/-- A change of the axis by the factor 3, keeping the integral. -/
example : Combination (3 : ℚ) (-2) field43 field43b field43c ∧
    ((field43.mapAxisGrid midSplines (1 / 1000) 0 (3 * ·) true none).map fun f => (f.axes.map (·.extent), values f)) =
      .ok ([(0, 12), (0, 6)], [0, 1 / 3, 2 / 3, 100 / 3, 101 / 3, 102 / 3, 200 / 3, 201 / 3, 202 / 3, 300 / 3, 301 / 3, 302 / 3]) ∧
    ((field43c.mapAxisGrid midSplines (1 / 1000) 0 (3 * ·) true none).map fun f => (values f).take 5) =
      .ok [0, 1, 2, 298 / 3, 301 / 3] := by
  refine ⟨⟨⟨by decide +kernel, rfl, rfl, rfl⟩, ⟨by decide +kernel, rfl, rfl, rfl⟩, fun _ _ => rfl⟩, ?_, ?_⟩
  · decide +kernel
  · decide +kernel

end Postpic.Props
