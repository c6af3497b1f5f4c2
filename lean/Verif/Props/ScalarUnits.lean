import Verif.Props.Scalars

/-!
# Positions, units and energies
-/

set_option autoImplicit false

namespace Postpic.Props

open Postpic Postpic.Scalars Postpic.Spec

noncomputable section

/-! ## C61: scalars for positions and in other units -/

/-- What a dump stores for a particle, and the constants of `scipy.constants` used here. -/
structure Record where
  x : ℝ
  y : ℝ
  z : ℝ
  px : ℝ
  py : ℝ
  pz : ℝ
  mass : ℝ
  charge : ℝ
  weight : ℝ
  id : ℝ
  time : ℝ
  c : ℝ
  e : ℝ
  u : ℝ

/-- Where the values are found. -/
structure HasRecord (src : Sources) (r : Record) : Prop where
  x : src.atomic "x" = some r.x
  y : src.atomic "y" = some r.y
  z : src.atomic "z" = some r.z
  px : src.atomic "px" = some r.px
  py : src.atomic "py" = some r.py
  pz : src.atomic "pz" = some r.pz
  mass : src.atomic "mass" = some r.mass
  charge : src.atomic "charge" = some r.charge
  weight : src.atomic "weight" = some r.weight
  id : src.atomic "id" = some r.id
  time : src.atomic "time" = some r.time
  c : src.constants "c" = some r.c
  e : src.constants "elementary_charge" = some r.e
  u : src.constants "atomic_mass" = some r.u

/-- Kinetic energy in joule. -/
def Record.ekin (r : Record) : ℝ := (lorentz r.c r.mass r.px r.py r.pz - 1) * r.mass * r.c ^ 2

/-- What the scalars are meant to be: lengths in micrometers, energies in MeV or keV (`e` is the elementary charge, so that
`10⁶ e` joule are one MeV), per atomic mass unit, and the distances from the axes. -/
def recordMeaning (r : Record) : String → ℝ
  | "time" => r.time
  | "t" => r.time
  | "weight" => r.weight
  | "w" => r.weight
  | "id" => r.id
  | "mass" => r.mass
  | "m" => r.mass
  | "charge" => r.charge
  | "q" => r.charge
  | "x" => r.x
  | "y" => r.y
  | "z" => r.z
  | "c" => r.c
  | "elementary_charge" => r.e
  | "atomic_mass" => r.u
  | "mass_u" => r.mass / r.u
  | "m_u" => r.mass / r.u
  | "charge_e" => r.charge / r.e
  | "q_e" => r.charge / r.e
  | "x_um" => r.x * 10 ^ 6
  | "y_um" => r.y * 10 ^ 6
  | "z_um" => r.z * 10 ^ 6
  | "Ekin" => r.ekin
  | "Ekin_MeV" => r.ekin / (10 ^ 6 * r.e)
  | "Ekin_MeV_amu" => r.ekin / (10 ^ 6 * r.e) / (r.mass / r.u)
  | "Ekin_MeV_qm" => r.ekin / (10 ^ 6 * r.e) * ((r.charge / r.e) / (r.mass / r.u))
  | "Ekin_keV" => r.ekin / (10 ^ 3 * r.e)
  | "Ekin_keV_amu" => r.ekin / (10 ^ 3 * r.e) / (r.mass / r.u)
  | "Ekin_keV_qm" => r.ekin / (10 ^ 3 * r.e) * ((r.charge / r.e) / (r.mass / r.u))
  | "r_xy" => Real.sqrt (r.x ^ 2 + r.y ^ 2)
  | "r_yz" => Real.sqrt (r.y ^ 2 + r.z ^ 2)
  | "r_zx" => Real.sqrt (r.z ^ 2 + r.x ^ 2)
  | "r_xyz" => Real.sqrt (r.x ^ 2 + r.y ^ 2 + r.z ^ 2)
  | _ => 0

/-- The scalars of the table above (`Ekin` and the others which depend on the momentum alone are in `momentumScalars`). -/
def recordScalars : List String :=
  ["time", "t", "weight", "w", "id", "mass", "m", "charge", "q", "x", "y", "z", "mass_u", "m_u", "charge_e", "q_e", "x_um", "y_um", "z_um", "Ekin", "Ekin_MeV", "Ekin_MeV_amu", "Ekin_MeV_qm", "Ekin_keV", "Ekin_keV_amu", "Ekin_keV_qm", "r_xy", "r_yz", "r_zx", "r_xyz"]

/-- A predefined scalar is read as its meaning. -/
theorem read_of_means (order : Expr → List String) (horder : ∀ e x, x ∈ order e ↔ x ∈ e.vars)
    (src : Sources) (fuel : ℕ) (hf : 6 ≤ fuel) (name : String) (hn : name ∈ defaultRegistry.map (·.1)) (v : ℝ)
    (hm : Means defaultRegistry.exprs src name v) : readText order defaultRegistry src fuel name = some (.ok v) := by
  obtain ⟨p, hp, rfl⟩ := List.mem_map.1 hn
  rw [symbol_consistent order horder src fuel hf p hp]
  have hme : MeansExpr defaultRegistry.exprs src (.var p.1) v :=
    ⟨fun _ => v, by simpa [Expr.vars] using hm, rfl⟩
  rcases default_terminates order horder src fuel hf (.var p.1) with ⟨w, hw, k⟩ | ⟨k, _⟩
  · rw [k, meansExpr_unique hme hw]
  · exact absurd ⟨v, hme⟩ k

theorem means_record (src : Sources) (r : Record) (hs : HasRecord src r) :
    ∀ x ∈ recordScalars, Means defaultRegistry.exprs src x (recordMeaning r x) := by
  have h_x : Means defaultRegistry.exprs src "x" (recordMeaning r "x") := .atomic _ _ (by decide) hs.x
  have h_y : Means defaultRegistry.exprs src "y" (recordMeaning r "y") := .atomic _ _ (by decide) hs.y
  have h_z : Means defaultRegistry.exprs src "z" (recordMeaning r "z") := .atomic _ _ (by decide) hs.z
  have h_mass : Means defaultRegistry.exprs src "mass" (recordMeaning r "mass") := .atomic _ _ (by decide) hs.mass
  have h_charge : Means defaultRegistry.exprs src "charge" (recordMeaning r "charge") := .atomic _ _ (by decide) hs.charge
  have h_weight : Means defaultRegistry.exprs src "weight" (recordMeaning r "weight") := .atomic _ _ (by decide) hs.weight
  have h_id : Means defaultRegistry.exprs src "id" (recordMeaning r "id") := .atomic _ _ (by decide) hs.id
  have h_time : Means defaultRegistry.exprs src "time" (recordMeaning r "time") := .atomic _ _ (by decide) hs.time
  have h_t : Means defaultRegistry.exprs src "t" (recordMeaning r "t") := .atomic _ _ (by decide) hs.time
  have h_w : Means defaultRegistry.exprs src "w" (recordMeaning r "w") := .atomic _ _ (by decide) hs.weight
  have h_m : Means defaultRegistry.exprs src "m" (recordMeaning r "m") := .atomic _ _ (by decide) hs.mass
  have h_q : Means defaultRegistry.exprs src "q" (recordMeaning r "q") := .atomic _ _ (by decide) hs.charge
  have h_c : Means defaultRegistry.exprs src "c" r.c := .constant _ _ (by decide) (by decide +kernel) hs.c
  have h_e : Means defaultRegistry.exprs src "elementary_charge" r.e := .constant _ _ (by decide) (by decide +kernel) hs.e
  have h_u : Means defaultRegistry.exprs src "atomic_mass" r.u := .constant _ _ (by decide) (by decide +kernel) hs.u
  have h_Ekin : Means defaultRegistry.exprs src "Ekin" (recordMeaning r "Ekin") :=
    means_all src r.c r.mass r.px r.py r.pz ⟨hs.px, hs.py, hs.pz, hs.mass, hs.c⟩ "Ekin" (by simp [momentumScalars])
  have h_mass_u : Means defaultRegistry.exprs src "mass_u" (recordMeaning r "mass_u") :=
    means_scalar (env := recordMeaning r)
      (e := .div (.var "mass") (.var "atomic_mass"))
      (by decide) (by decide +kernel)
      (by simp only [Expr.vars, List.cons_append, List.nil_append, List.forall_mem_cons]
          exact ⟨h_mass, h_u, by simp⟩)
      (rfl)
  have h_m_u : Means defaultRegistry.exprs src "m_u" (recordMeaning r "m_u") :=
    means_scalar (env := recordMeaning r)
      (e := .div (.var "mass") (.var "atomic_mass"))
      (by decide) (by decide +kernel)
      (by simp only [Expr.vars, List.cons_append, List.nil_append, List.forall_mem_cons]
          exact ⟨h_mass, h_u, by simp⟩)
      (rfl)
  have h_charge_e : Means defaultRegistry.exprs src "charge_e" (recordMeaning r "charge_e") :=
    means_scalar (env := recordMeaning r)
      (e := .div (.var "charge") (.var "elementary_charge"))
      (by decide) (by decide +kernel)
      (by simp only [Expr.vars, List.cons_append, List.nil_append, List.forall_mem_cons]
          exact ⟨h_charge, h_e, by simp⟩)
      (rfl)
  have h_q_e : Means defaultRegistry.exprs src "q_e" (recordMeaning r "q_e") :=
    means_scalar (env := recordMeaning r)
      (e := .div (.var "charge") (.var "elementary_charge"))
      (by decide) (by decide +kernel)
      (by simp only [Expr.vars, List.cons_append, List.nil_append, List.forall_mem_cons]
          exact ⟨h_charge, h_e, by simp⟩)
      (rfl)
  have h_x_um : Means defaultRegistry.exprs src "x_um" (recordMeaning r "x_um") :=
    means_scalar (env := recordMeaning r)
      (e := .mul (.var "x") (.num 1000000))
      (by decide) (by decide +kernel)
      (by simp only [Expr.vars, List.cons_append, List.nil_append, List.forall_mem_cons]
          exact ⟨h_x, by simp⟩)
      (by simp only [Expr.eval]; show r.x * 10 ^ 6 = r.x * ((1000000 : ℚ) : ℝ); norm_num)
  have h_y_um : Means defaultRegistry.exprs src "y_um" (recordMeaning r "y_um") :=
    means_scalar (env := recordMeaning r)
      (e := .mul (.var "y") (.num 1000000))
      (by decide) (by decide +kernel)
      (by simp only [Expr.vars, List.cons_append, List.nil_append, List.forall_mem_cons]
          exact ⟨h_y, by simp⟩)
      (by simp only [Expr.eval]; show r.y * 10 ^ 6 = r.y * ((1000000 : ℚ) : ℝ); norm_num)
  have h_z_um : Means defaultRegistry.exprs src "z_um" (recordMeaning r "z_um") :=
    means_scalar (env := recordMeaning r)
      (e := .mul (.var "z") (.num 1000000))
      (by decide) (by decide +kernel)
      (by simp only [Expr.vars, List.cons_append, List.nil_append, List.forall_mem_cons]
          exact ⟨h_z, by simp⟩)
      (by simp only [Expr.eval]; show r.z * 10 ^ 6 = r.z * ((1000000 : ℚ) : ℝ); norm_num)
  have h_Ekin_MeV : Means defaultRegistry.exprs src "Ekin_MeV" (recordMeaning r "Ekin_MeV") :=
    means_scalar (env := recordMeaning r)
      (e := .div (.div (.var "Ekin") (.var "elementary_charge")) (.num 1000000))
      (by decide) (by decide +kernel)
      (by simp only [Expr.vars, List.cons_append, List.nil_append, List.forall_mem_cons]
          exact ⟨h_Ekin, h_e, by simp⟩)
      (by simp only [Expr.eval]; show r.ekin / (10 ^ 6 * r.e) = r.ekin / r.e / ((1000000 : ℚ) : ℝ); rw [div_div]; norm_num [mul_comm])
  have h_Ekin_MeV_amu : Means defaultRegistry.exprs src "Ekin_MeV_amu" (recordMeaning r "Ekin_MeV_amu") :=
    means_scalar (env := recordMeaning r)
      (e := .div (.div (.div (.var "Ekin") (.var "elementary_charge")) (.num 1000000)) (.var "mass_u"))
      (by decide) (by decide +kernel)
      (by simp only [Expr.vars, List.cons_append, List.nil_append, List.forall_mem_cons]
          exact ⟨h_Ekin, h_e, h_mass_u, by simp⟩)
      (by simp only [Expr.eval]; show r.ekin / (10 ^ 6 * r.e) / (r.mass / r.u) = r.ekin / r.e / ((1000000 : ℚ) : ℝ) / (r.mass / r.u); rw [div_div r.ekin r.e]; norm_num [mul_comm])
  have h_Ekin_MeV_qm : Means defaultRegistry.exprs src "Ekin_MeV_qm" (recordMeaning r "Ekin_MeV_qm") :=
    means_scalar (env := recordMeaning r)
      (e := .mul (.div (.div (.div (.var "Ekin") (.var "elementary_charge")) (.num 1000000)) (.var "mass_u")) (.var "charge_e"))
      (by decide) (by decide +kernel)
      (by simp only [Expr.vars, List.cons_append, List.nil_append, List.forall_mem_cons]
          exact ⟨h_Ekin, h_e, h_mass_u, h_charge_e, by simp⟩)
      (by simp only [Expr.eval]; show r.ekin / (10 ^ 6 * r.e) * ((r.charge / r.e) / (r.mass / r.u)) = r.ekin / r.e / ((1000000 : ℚ) : ℝ) / (r.mass / r.u) * (r.charge / r.e); rw [div_div r.ekin r.e, show r.e * ((1000000 : ℚ) : ℝ) = 10 ^ 6 * r.e by norm_num [mul_comm]]; ring)
  have h_Ekin_keV : Means defaultRegistry.exprs src "Ekin_keV" (recordMeaning r "Ekin_keV") :=
    means_scalar (env := recordMeaning r)
      (e := .div (.div (.var "Ekin") (.var "elementary_charge")) (.num 1000))
      (by decide) (by decide +kernel)
      (by simp only [Expr.vars, List.cons_append, List.nil_append, List.forall_mem_cons]
          exact ⟨h_Ekin, h_e, by simp⟩)
      (by simp only [Expr.eval]; show r.ekin / (10 ^ 3 * r.e) = r.ekin / r.e / ((1000 : ℚ) : ℝ); rw [div_div]; norm_num [mul_comm])
  have h_Ekin_keV_amu : Means defaultRegistry.exprs src "Ekin_keV_amu" (recordMeaning r "Ekin_keV_amu") :=
    means_scalar (env := recordMeaning r)
      (e := .div (.div (.div (.var "Ekin") (.var "elementary_charge")) (.num 1000)) (.var "mass_u"))
      (by decide) (by decide +kernel)
      (by simp only [Expr.vars, List.cons_append, List.nil_append, List.forall_mem_cons]
          exact ⟨h_Ekin, h_e, h_mass_u, by simp⟩)
      (by simp only [Expr.eval]; show r.ekin / (10 ^ 3 * r.e) / (r.mass / r.u) = r.ekin / r.e / ((1000 : ℚ) : ℝ) / (r.mass / r.u); rw [div_div r.ekin r.e]; norm_num [mul_comm])
  have h_Ekin_keV_qm : Means defaultRegistry.exprs src "Ekin_keV_qm" (recordMeaning r "Ekin_keV_qm") :=
    means_scalar (env := recordMeaning r)
      (e := .mul (.div (.div (.div (.var "Ekin") (.var "elementary_charge")) (.num 1000)) (.var "mass_u")) (.var "charge_e"))
      (by decide) (by decide +kernel)
      (by simp only [Expr.vars, List.cons_append, List.nil_append, List.forall_mem_cons]
          exact ⟨h_Ekin, h_e, h_mass_u, h_charge_e, by simp⟩)
      (by simp only [Expr.eval]; show r.ekin / (10 ^ 3 * r.e) * ((r.charge / r.e) / (r.mass / r.u)) = r.ekin / r.e / ((1000 : ℚ) : ℝ) / (r.mass / r.u) * (r.charge / r.e); rw [div_div r.ekin r.e, show r.e * ((1000 : ℚ) : ℝ) = 10 ^ 3 * r.e by norm_num [mul_comm]]; ring)
  have h_r_xy : Means defaultRegistry.exprs src "r_xy" (recordMeaning r "r_xy") :=
    means_scalar (env := recordMeaning r)
      (e := .sqrt (.add (.pow (.var "x") 2) (.pow (.var "y") 2)))
      (by decide) (by decide +kernel)
      (by simp only [Expr.vars, List.cons_append, List.nil_append, List.forall_mem_cons]
          exact ⟨h_x, h_y, by simp⟩)
      (rfl)
  have h_r_yz : Means defaultRegistry.exprs src "r_yz" (recordMeaning r "r_yz") :=
    means_scalar (env := recordMeaning r)
      (e := .sqrt (.add (.pow (.var "y") 2) (.pow (.var "z") 2)))
      (by decide) (by decide +kernel)
      (by simp only [Expr.vars, List.cons_append, List.nil_append, List.forall_mem_cons]
          exact ⟨h_y, h_z, by simp⟩)
      (rfl)
  have h_r_zx : Means defaultRegistry.exprs src "r_zx" (recordMeaning r "r_zx") :=
    means_scalar (env := recordMeaning r)
      (e := .sqrt (.add (.pow (.var "z") 2) (.pow (.var "x") 2)))
      (by decide) (by decide +kernel)
      (by simp only [Expr.vars, List.cons_append, List.nil_append, List.forall_mem_cons]
          exact ⟨h_z, h_x, by simp⟩)
      (rfl)
  have h_r_xyz : Means defaultRegistry.exprs src "r_xyz" (recordMeaning r "r_xyz") :=
    means_scalar (env := recordMeaning r)
      (e := .sqrt (.add (.add (.pow (.var "x") 2) (.pow (.var "y") 2)) (.pow (.var "z") 2)))
      (by decide) (by decide +kernel)
      (by simp only [Expr.vars, List.cons_append, List.nil_append, List.forall_mem_cons]
          exact ⟨h_x, h_y, h_z, by simp⟩)
      (rfl)
  simp only [recordScalars, List.forall_mem_cons]
  exact ⟨h_time, h_t, h_weight, h_w, h_id, h_mass, h_m, h_charge, h_q, h_x, h_y, h_z, h_mass_u, h_m_u, h_charge_e, h_q_e, h_x_um, h_y_um, h_z_um, h_Ekin, h_Ekin_MeV, h_Ekin_MeV_amu, h_Ekin_MeV_qm, h_Ekin_keV, h_Ekin_keV_amu, h_Ekin_keV_qm, h_r_xy, h_r_yz, h_r_zx, h_r_xyz, by simp⟩

/-- C61: the scalars for positions, masses, charges and energies have the documented values, for all particles. -/
theorem record_values (order : Expr → List String) (horder : ∀ e x, x ∈ order e ↔ x ∈ e.vars) (src : Sources) (r : Record)
    (hs : HasRecord src r) (fuel : ℕ) (hf : 6 ≤ fuel) (name : String) (hname : name ∈ recordScalars) :
    readText order defaultRegistry src fuel name = some (.ok (recordMeaning r name)) := by
  have hkeys : ∀ name ∈ recordScalars, name ∈ defaultRegistry.map (·.1) := by decide +kernel
  exact read_of_means order horder src fuel hf name (hkeys name hname) _ (means_record src r hs name hname)

/-- All predefined scalars are covered by this table or by `momentumScalars`; `_np2` is an auxiliary quantity. -/
theorem scalars_covered : ∀ p ∈ defaultRegistry, p.1 ∈ recordScalars ∨ p.1 ∈ momentumScalars ∨ p.1 = "_np2" := by
  decide +kernel

/-- C61: the label of the unit of a predefined scalar. -/
def unitOf (name : String) : Option String := (defaultRegistry.call name).unit

/-- C61: `Ekin_MeV` is 1 for a particle with the kinetic energy of `10⁶` elementary charges times one volt, `x_um` is 1 for one
micrometer, and `Ekin_keV` is 1000 times `Ekin_MeV`. -/
theorem units_consistent (r : Record) (he : r.e ≠ 0) :
    (r.ekin = 10 ^ 6 * r.e → recordMeaning r "Ekin_MeV" = 1) ∧
      recordMeaning r "Ekin_keV" = 1000 * recordMeaning r "Ekin_MeV" ∧
      recordMeaning r "Ekin_keV_amu" = 1000 * recordMeaning r "Ekin_MeV_amu" ∧
      recordMeaning r "Ekin_keV_qm" = 1000 * recordMeaning r "Ekin_MeV_qm" ∧
      recordMeaning r "x_um" * 10⁻¹ ^ 6 = recordMeaning r "x" ∧
      recordMeaning r "charge_e" * r.e = recordMeaning r "charge" ∧
      recordMeaning r "r_xyz" ^ 2 = recordMeaning r "r_xy" ^ 2 + r.z ^ 2 ∧
      recordMeaning r "r_xyz" ^ 2 = recordMeaning r "r_yz" ^ 2 + r.x ^ 2 ∧
      recordMeaning r "r_xyz" ^ 2 = recordMeaning r "r_zx" ^ 2 + r.y ^ 2 := by
  have hs : ∀ a b : ℝ, Real.sqrt (a ^ 2 + b ^ 2) ^ 2 = a ^ 2 + b ^ 2 := fun a b => Real.sq_sqrt (by positivity)
  have h3 : Real.sqrt (r.x ^ 2 + r.y ^ 2 + r.z ^ 2) ^ 2 = r.x ^ 2 + r.y ^ 2 + r.z ^ 2 := Real.sq_sqrt (by positivity)
  simp only [recordMeaning]
  refine ⟨fun h => ?_, ?_, ?_, ?_, ?_, ?_, ?_, ?_, ?_⟩
  · rw [h]
    exact div_self (by positivity)
  · field_simp; ring
  · field_simp; ring
  · field_simp; ring
  · norm_num; ring
  · exact div_mul_cancel₀ _ he
  · rw [h3, hs]
  · rw [h3, hs]; ring
  · rw [h3, hs]; ring

/-- C61 violated: `Ekin_keV` is labelled `keV/u`, although it is not divided by the mass in atomic mass units; `Ekin_MeV` is
labelled `MeV`. -/
theorem unit_label_violated : unitOf "Ekin_keV" = some "keV/u" ∧ unitOf "Ekin_keV_amu" = some "keV/u" ∧
    unitOf "Ekin_MeV" = some "MeV" ∧ unitOf "Ekin_MeV_amu" = some "MeV/u" ∧
    ∃ r : Record, recordMeaning r "Ekin_keV" ≠ recordMeaning r "Ekin_keV_amu" := by
  refine ⟨by decide +kernel, by decide +kernel, by decide +kernel, by decide +kernel,
    ⟨0, 0, 0, 2 * Real.sqrt 2, 0, 0, 1, 1, 1, 1, 1, 1, 1, 1 / 2⟩, ?_⟩
  have hg : lorentz 1 1 (2 * Real.sqrt 2) 0 0 = 3 := by
    unfold lorentz
    rw [mul_pow, Real.sq_sqrt (by norm_num), show (1 : ℝ) + (2 ^ 2 * 2 + 0 ^ 2 + 0 ^ 2) / (1 * 1) ^ 2 = 3 ^ 2 by norm_num]
    exact Real.sqrt_sq (by norm_num)
  simp only [recordMeaning, Record.ekin, hg]
  norm_num

/-- C61: a text which is not the name or the expression of a predefined scalar is an expression of scalars. -/
theorem read_expression (order : Expr → List String) (horder : ∀ e x, x ∈ order e ↔ x ∈ e.vars) (src : Sources) (r : Record)
    (hs : HasRecord src r) (fuel : ℕ) (hf : 6 ≤ fuel) (text : String) (e : Expr)
    (hp : parse (defaultRegistry.call text).expr = some e) (hv : ∀ x ∈ e.vars, x ∈ recordScalars) :
    readText order defaultRegistry src fuel text = some (.ok (e.eval (recordMeaning r))) := by
  have hme : MeansExpr defaultRegistry.exprs src e (e.eval (recordMeaning r)) :=
    ⟨recordMeaning r, fun x hx => means_record src r hs x (hv x hx), rfl⟩
  unfold readText
  rw [hp]
  simp only [Option.map_some, Option.some.injEq]
  rcases default_terminates order horder src fuel hf e with ⟨v, hv, h⟩ | ⟨h, _⟩
  · rw [h, meansExpr_unique hv hme]
  · exact absurd ⟨_, hme⟩ h

/-- C61: expressions given by the user follow the rules of arithmetic: products before sums, powers before products and signs,
from left to right, parentheses first; for all particles. -/
theorem expressions_arithmetic (order : Expr → List String) (horder : ∀ e x, x ∈ order e ↔ x ∈ e.vars) (src : Sources)
    (r : Record) (hs : HasRecord src r) (fuel : ℕ) (hf : 6 ≤ fuel) :
    let read := readText order defaultRegistry src fuel
    read "x - y - z" = some (.ok (r.x - r.y - r.z)) ∧
    read "x - (y - z)" = some (.ok (r.x - (r.y - r.z))) ∧
    read "x + y * z" = some (.ok (r.x + r.y * r.z)) ∧
    read "(x + y) * z" = some (.ok ((r.x + r.y) * r.z)) ∧
    read "x / y / z" = some (.ok (r.x / r.y / r.z)) ∧
    read "x / (y / z)" = some (.ok (r.x / (r.y / r.z))) ∧
    read "x / y * z" = some (.ok (r.x / r.y * r.z)) ∧
    read "-x**2 + y" = some (.ok (-r.x ^ 2 + r.y)) ∧
    read "x*y**3" = some (.ok (r.x * r.y ^ 3)) ∧
    read "sqrt(x - y) * 2" = some (.ok (Real.sqrt (r.x - r.y) * 2)) ∧
    read "arctan2(x, y)" = some (.ok (Complex.arg ⟨r.y, r.x⟩)) ∧
    read "t + w + q - m" = some (.ok (r.time + r.weight + r.charge - r.mass)) := by
  have key := read_expression order horder src r hs fuel hf
  refine ⟨key _ (.sub (.sub (.var "x") (.var "y")) (.var "z")) (by decide +kernel) (by decide +kernel),
    key _ (.sub (.var "x") (.sub (.var "y") (.var "z"))) (by decide +kernel) (by decide +kernel),
    key _ (.add (.var "x") (.mul (.var "y") (.var "z"))) (by decide +kernel) (by decide +kernel),
    key _ (.mul (.add (.var "x") (.var "y")) (.var "z")) (by decide +kernel) (by decide +kernel),
    key _ (.div (.div (.var "x") (.var "y")) (.var "z")) (by decide +kernel) (by decide +kernel),
    key _ (.div (.var "x") (.div (.var "y") (.var "z"))) (by decide +kernel) (by decide +kernel),
    key _ (.mul (.div (.var "x") (.var "y")) (.var "z")) (by decide +kernel) (by decide +kernel),
    key _ (.add (.neg (.pow (.var "x") 2)) (.var "y")) (by decide +kernel) (by decide +kernel),
    key _ (.mul (.var "x") (.pow (.var "y") 3)) (by decide +kernel) (by decide +kernel), ?_,
    key _ (.arctan2 (.var "x") (.var "y")) (by decide +kernel) (by decide +kernel),
    key _ (.sub (.add (.add (.var "t") (.var "w")) (.var "q")) (.var "m")) (by decide +kernel) (by decide +kernel)⟩
  have h := key "sqrt(x - y) * 2" (.mul (.sqrt (.sub (.var "x") (.var "y"))) (.num 2)) (by decide +kernel) (by decide +kernel)
  simp only [Expr.eval, recordMeaning] at h
  rw [h]
  norm_num

/-- A dump with all the values. -/
def exampleSources (r : Record) : Sources where
  atomic s := if s = "x" then some r.x else if s = "y" then some r.y else if s = "z" then some r.z else if s = "px" then some r.px
    else if s = "py" then some r.py else if s = "pz" then some r.pz else if s = "mass" then some r.mass
    else if s = "charge" then some r.charge else if s = "weight" then some r.weight else if s = "id" then some r.id
    else if s = "time" then some r.time else none
  np _ := none
  constants s := if s = "c" then some r.c else if s = "elementary_charge" then some r.e
    else if s = "atomic_mass" then some r.u else none

theorem exampleSources_has (r : Record) : HasRecord (exampleSources r) r := by
  constructor <;> simp [exampleSources]

example (r : Record) : readText Expr.vars defaultRegistry (exampleSources r) 6 "Ekin_MeV" =
    some (.ok (r.ekin / (10 ^ 6 * r.e))) :=
  record_values Expr.vars (fun _ _ => Iff.rfl) _ r (exampleSources_has r) 6 (le_refl _) "Ekin_MeV" (by simp [recordScalars])

end

end Postpic.Props
