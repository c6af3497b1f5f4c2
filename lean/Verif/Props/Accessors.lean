import Verif.Model.Accessors
import Verif.Props.ScalarUnits

/-!
# Methods which read one property
-/

set_option autoImplicit false

namespace Postpic.Props

open Postpic Postpic.Spec Postpic.Scalars

/-- What a predefined scalar is for a particle. -/
noncomputable def particleMeaning (r : Record) (name : String) : ℝ :=
  if name ∈ momentumScalars then meaning r.c r.mass r.px r.py r.pz name else recordMeaning r name

/-- The scalar which belongs to a method: that with the same name, or the same name in small letters. -/
def scalarOf (method : String) : String :=
  if method ∈ defaultScalars.filterMap SP.symbol then method else String.ofList (method.toList.map Char.toLower)

theorem hasMomentum_of_record {src : Sources} {r : Record} (h : HasRecord src r) : HasMomentum src r.c r.mass r.px r.py r.pz :=
  ⟨h.px, h.py, h.pz, h.mass, h.c⟩

/-- Every predefined scalar is read as its meaning. -/
theorem read_scalar (order : Expr → List String) (horder : ∀ e x, x ∈ order e ↔ x ∈ e.vars) (src : Sources) (r : Record)
    (hs : HasRecord src r) (fuel : ℕ) (hf : 6 ≤ fuel) (name : String) (hn : name ∈ recordScalars ∨ name ∈ momentumScalars) :
    readText order defaultRegistry src fuel name = some (.ok (particleMeaning r name)) := by
  unfold particleMeaning
  split_ifs with h
  · exact scalar_values order horder src _ _ _ _ _ (hasMomentum_of_record hs) fuel hf name h
  · exact record_values order horder src r hs fuel hf name (hn.resolve_right h)

/-- A name which is not known at all gives KeyError. -/
theorem read_unknown (order : Expr → List String) (horder : ∀ e x, x ∈ order e ↔ x ∈ e.vars) (src : Sources) (fuel : ℕ) (hf : 6 ≤ fuel)
    (name : String) (hp : parse (defaultRegistry.call name).expr = some (.var name)) (ha : fullname name ∉ atomicProps)
    (hr : defaultRegistry.exprs name = none) (hc : src.constants name = none) (hn : src.np name = none) :
    readText order defaultRegistry src fuel name = some (.error .keyError) := by
  unfold readText
  rw [hp]
  simp only [Option.map_some, Option.some.injEq]
  rcases default_terminates order horder src fuel hf (.var name) with ⟨v, ⟨env, h, _⟩, _⟩ | ⟨_, h⟩
  · have := h name (by simp [Expr.vars])
    generalize env name = w at this
    cases this with
    | atomic _ _ h => exact absurd h ha
    | scalar _ e _ _ h => rw [hr] at h; cases h
    | constant _ _ _ _ h => rw [hc] at h; cases h
    | numpy _ _ _ _ _ h => rw [hn] at h; cases h
  · exact h

theorem method_texts : ∀ m ∈ methodNames classBody, m ≠ "angle_yz" → methodText classBody m = some (scalarOf m) ∧
    (scalarOf m ∈ recordScalars ∨ scalarOf m ∈ momentumScalars) := by decide +kernel

theorem method_messages : ∀ m ∈ methodNames classBody, m ≠ "Y_um" →
    (methodMessage classBody m).map (warningText m) =
      some (String.ofList ("The function ".toList ++ m.toList ++ " is deprecated. Use self(\"".toList ++ (scalarOf m).toList ++
        "\") instead.".toList)) := by decide +kernel

/-! ## C75 -/

/-- C75: every method which reads a property returns the value which the scalar of the same name (up to capital letters) has, for all
particles. Partial: all methods but `angle_yz`, see `angle_yz_violated`. -/
theorem accessors_partial (order : Expr → List String) (horder : ∀ e x, x ∈ order e ↔ x ∈ e.vars) (src : Sources) (r : Record)
    (hs : HasRecord src r) (fuel : ℕ) (hf : 6 ≤ fuel) (m : String) (hm : m ∈ methodNames classBody) (hne : m ≠ "angle_yz") :
    callMethod order defaultRegistry src fuel m = some (.ok (particleMeaning r (scalarOf m))) ∧
    readText order defaultRegistry src fuel (scalarOf m) = some (.ok (particleMeaning r (scalarOf m))) := by
  obtain ⟨h1, h2⟩ := method_texts m hm hne
  have := read_scalar order horder src r hs fuel hf _ h2
  exact ⟨by rw [callMethod, h1]; exact this, this⟩

/-- C75: the warning names the scalar to use instead. Partial: all methods but `Y_um`, see `y_um_hint_violated`. -/
theorem warnings_partial (m : String) (hm : m ∈ methodNames classBody) (hne : m ≠ "Y_um") :
    (methodMessage classBody m).map (warningText m) =
      some (String.ofList ("The function ".toList ++ m.toList ++ " is deprecated. Use self(\"".toList ++ (scalarOf m).toList ++
        "\") instead.".toList)) := method_messages m hm hne

/-- Two spellings of the same unit: that of the method and that of the scalar. Ratios have no unit, the methods show their symbols. -/
def sameUnits : List (String × String) :=
  [("u", "amu"), ("$\\mu m$", "$\\mu$ m"), ("MeV / amu", "MeV/u"), ("MeV*q/m", "MeV * q/m"), ("keV / amu", "keV/u"),
    ("keV*q/m", "keV * q/m"), ("$\\beta$", ""), ("$\\gamma$", ""), ("$\\gamma - 1$", "")]

/-- C75: the unit which a method has for labels is the unit of the scalar which it reads, up to the spelling. Partial: not for
`charge` (see `charge_unit_violated`), for `Ekin_keV` (there the unit of the scalar is wrong), for the momenta (which have empty units), and for
`ID`, `charge_e` and `Eruhe` (which have none). -/
theorem accessor_units_partial : ∀ m ∈ methodNames classBody,
    m ∉ ["charge", "Ekin_keV", "Px", "Py", "Pz", "P", "ID", "charge_e", "Eruhe"] →
    ∃ a b, methodAttr classBody m "unit" = some a ∧ unitOf (scalarOf m) = some b ∧ (a = b ∨ (a, b) ∈ sameUnits) := by
  have h : ∀ m ∈ methodNames classBody, m ∉ ["charge", "Ekin_keV", "Px", "Py", "Pz", "P", "ID", "charge_e", "Eruhe"] →
      (match methodAttr classBody m "unit", unitOf (scalarOf m) with
        | some a, some b => decide (a = b ∨ (a, b) ∈ sameUnits)
        | _, _ => false) = true := by decide +kernel
  intro m hm hn
  have := h m hm hn
  generalize methodAttr classBody m "unit" = oa at *
  generalize unitOf (scalarOf m) = ob at *
  cases oa <;> cases ob <;> simp at this ⊢
  exact this

example : "mass_u" ∈ methodNames classBody ∧ methodAttr classBody "mass_u" "unit" = some "u" ∧ unitOf "mass_u" = some "amu" := by
  decide +kernel

/-- C75 violated: the momenta are in kg m/s, but their units for labels are empty; the unit of `Ekin_keV()` is right, that of the scalar
`Ekin_keV` is not (it is the unit of `Ekin_keV_amu`). -/
theorem momentum_unit_violated : (∀ m ∈ ["Px", "Py", "Pz", "P"], methodAttr classBody m "unit" = some "" ∧
      unitOf (scalarOf m) = some "kg*m/s") ∧
    methodAttr classBody "Ekin_keV" "unit" = some "keV" ∧ unitOf "Ekin_keV" = some "keV/u" ∧ unitOf "Ekin_keV_amu" = some "keV/u" := by
  decide +kernel

/-! ### Examples and violations -/

example : (methodNames classBody).length = 46 := by decide +kernel

example : "X_um" ∈ methodNames classBody ∧ scalarOf "X_um" = "x_um" ∧ scalarOf "Ekin_MeV" = "Ekin_MeV" := by decide +kernel

example (r : Record) : callMethod Expr.vars defaultRegistry (exampleSources r) 6 "X_um" = some (.ok (r.x * 10 ^ 6)) := by
  have h := (accessors_partial Expr.vars (fun _ _ => Iff.rfl) _ r (exampleSources_has r) 6 (le_refl 6) "X_um" (by decide +kernel)
    (by decide)).1
  rw [h, show scalarOf "X_um" = "x_um" by decide +kernel]
  rw [particleMeaning, if_neg (by decide +kernel)]
  rfl

/-- C75 violated: `angle_yz()` reads `ange_yz`, so that it raises KeyError for all particles. -/
theorem angle_yz_violated (order : Expr → List String) (horder : ∀ e x, x ∈ order e ↔ x ∈ e.vars) (src : Sources) (fuel : ℕ)
    (hf : 6 ≤ fuel) (hc : src.constants "ange_yz" = none) (hn : src.np "ange_yz" = none) :
    "angle_yz" ∈ methodNames classBody ∧ callMethod order defaultRegistry src fuel "angle_yz" = some (.error .keyError) := by
  refine ⟨by decide +kernel, ?_⟩
  rw [callMethod, show methodText classBody "angle_yz" = some "ange_yz" by decide +kernel, Option.bind_some]
  exact read_unknown order horder src fuel hf "ange_yz" (by decide +kernel) (by decide +kernel) (by decide +kernel) hc hn

/-- C75 violated: the warning of `Y_um()` tells to use `Y_mu`, which raises KeyError. -/
theorem y_um_hint_violated (order : Expr → List String) (horder : ∀ e x, x ∈ order e ↔ x ∈ e.vars) (src : Sources) (fuel : ℕ)
    (hf : 6 ≤ fuel) (hc : src.constants "Y_mu" = none) (hn : src.np "Y_mu" = none) :
    (methodMessage classBody "Y_um").map (warningText "Y_um") =
      some "The function Y_um is deprecated. Use self(\"Y_mu\") instead." ∧
    readText order defaultRegistry src fuel "Y_mu" = some (.error .keyError) :=
  ⟨by decide +kernel, read_unknown order horder src fuel hf "Y_mu" (by decide +kernel) (by decide +kernel) (by decide +kernel) hc hn⟩

/-- C75 violated: `charge()` is in coulomb, but its unit for labels is that of `charge_e()` (elementary charges), which has none. -/
theorem charge_unit_violated : methodText classBody "charge" = some "charge" ∧ unitOf "charge" = some "C" ∧
    methodAttr classBody "charge" "unit" = some "qe" ∧ methodText classBody "charge_e" = some "charge_e" ∧
    methodAttr classBody "charge_e" "unit" = none := by decide +kernel

end Postpic.Props
