import Verif.Lemmas.Scalars
import Mathlib.Tactic.FieldSimp
import Mathlib.Tactic.Positivity

/-!
# C15, C17: values of the predefined particle scalars
-/

set_option autoImplicit false

namespace Postpic.Props

open Postpic Postpic.Scalars Postpic.Spec

/-! ## C17: resolution terminates -/

/-- For every registry without cycles and every expression, evaluation terminates with the value
the documented resolution order assigns to the expression, or with KeyError if it assigns none. The
memo table and the order in which the variables are visited do not matter. `n` bounds the rank of
the scalars. -/
theorem eval_correct (order : Expr → List String) (horder : ∀ e x, x ∈ order e ↔ x ∈ e.vars)
    (reg : String → Option Expr) (src : Sources) (rank : String → ℕ) (hac : Acyclic reg rank) (n : ℕ)
    (hn : ∀ x, rank x < n) (fuel : ℕ) (hf : n < fuel) (e : Expr) :
    (∃ v, MeansExpr reg src e v ∧ (evalSp order reg src fuel e fun _ => none).1 = .ok v) ∨
    ((¬ ∃ v, MeansExpr reg src e v) ∧
      (evalSp order reg src fuel e fun _ => none).1 = .error .keyError) := by
  obtain ⟨k, rfl⟩ : ∃ k, fuel = k + 1 := ⟨fuel - 1, by omega⟩
  exact (evalSp_good order horder rank hac k e (fun x _ _ _ => lt_of_lt_of_le (hn x) (by omega)) _
    (by intro s v h; cases h)).2.2

/-- Ranks of the predefined scalars. -/
def defaultRank (s : String) : ℕ :=
  if s ∈ ["_np2", "mass_u", "charge_e", "p"] then 1
  else if s ∈ ["gamma", "gamma_m1"] then 2
  else if s ∈ ["beta", "vx", "vy", "vz", "Ekin", "gamma_m"] then 3
  else 4

/-- C17: the dependency relation of the predefined scalars has no cycle. -/
theorem default_acyclic : Acyclic defaultRegistry.exprs defaultRank := by
  have key : ∀ p ∈ defaultRegistry, fullname p.1 ∈ atomicProps ∨ ∃ e ∈ parse p.2.expr,
      ∀ x ∈ e.vars, fullname x ∈ atomicProps ∨ (defaultRegistry.exprs x).isSome = false ∨
        defaultRank x < defaultRank p.1 := by decide +kernel
  intro name e hname he x hx hxa hxs
  unfold Registry.exprs at he
  cases hg : defaultRegistry.get name with
  | none => rw [hg] at he; cases he
  | some sp =>
    rw [hg] at he
    rcases key (name, sp) (get_mem hg) with h | ⟨e', he', h⟩
    · exact absurd h hname
    · have : parse sp.expr = some e' := he'
      simp only [this, Option.some.injEq] at he
      subst he
      rcases h x hx with h | h | h
      · exact absurd h hxa
      · rw [hxs] at h; cases h
      · exact h

theorem defaultRank_lt (s : String) : defaultRank s < 5 := by
  unfold defaultRank; split_ifs <;> omega

/-- C17: reading any expression with the predefined scalars never exceeds a nesting depth of 6,
whatever the dump contains; it gives the value of the expression or KeyError. -/
theorem default_terminates (order : Expr → List String) (horder : ∀ e x, x ∈ order e ↔ x ∈ e.vars)
    (src : Sources) (fuel : ℕ) (hf : 6 ≤ fuel) (e : Expr) :
    (∃ v, MeansExpr defaultRegistry.exprs src e v ∧
      (evalSp order defaultRegistry.exprs src fuel e fun _ => none).1 = .ok v) ∨
    ((¬ ∃ v, MeansExpr defaultRegistry.exprs src e v) ∧
      (evalSp order defaultRegistry.exprs src fuel e fun _ => none).1 = .error .keyError) :=
  eval_correct order horder _ src defaultRank default_acyclic 5 defaultRank_lt fuel (by omega) e

/-- All predefined expressions are covered by the expression language of the model. -/
theorem default_parses : ∀ sp ∈ defaultScalars, (parse sp.expr).isSome := by decide +kernel

/-- A scalar defined by itself (a user can add that) is never resolved, whatever the recursion
limit. -/
theorem cyclic_never_terminates (src : Sources) (fuel : ℕ) (vars : Vars) (hv : vars "a" = none) :
    (evalSp Expr.vars (fun s => if s = "a" then some (.add (.var "a") (.num 1)) else none) src fuel
      (.add (.var "a") (.num 1)) vars).1 = .error .recursionError := by
  induction fuel with
  | zero => rfl
  | succ n ih =>
    have hfn : fullname "a" = "a" := by decide
    have hat : ¬ fullname "a" ∈ atomicProps := by decide
    have e : Expr.vars (.add (.var "a") (.num 1)) = ["a"] := rfl
    unfold evalSp
    rw [e]
    unfold loadAll
    simp only [hv, hfn]
    rw [if_neg (by decide)]
    simp only [if_true]
    generalize evalSp Expr.vars (fun s => if s = "a" then some (.add (.var "a") (.num 1)) else none)
      src n (.add (.var "a") (.num 1)) vars = r at ih
    obtain ⟨r1, r2⟩ := r
    simp only at ih
    subst ih
    rfl

/-! ## C15: the values -/

/-- Lorentz factor of a particle with momentum `(px, py, pz)` and mass `m` (specification). -/
noncomputable def lorentz (c m px py pz : ℝ) : ℝ :=
  Real.sqrt (1 + (px ^ 2 + py ^ 2 + pz ^ 2) / (m * c) ^ 2)

/-- What the predefined scalars are meant to be (specification). -/
noncomputable def meaning (c m px py pz : ℝ) : String → ℝ
  | "px" => px
  | "py" => py
  | "pz" => pz
  | "mass" => m
  | "c" => c
  | "p" => Real.sqrt (px ^ 2 + py ^ 2 + pz ^ 2)
  | "_np2" => (px ^ 2 + py ^ 2 + pz ^ 2) / (m * c) ^ 2
  | "gamma" => lorentz c m px py pz
  | "gamma_m1" => lorentz c m px py pz - 1
  | "gamma_m" => lorentz c m px py pz * m
  | "beta" => Real.sqrt (1 - 1 / lorentz c m px py pz ^ 2)
  | "v" => Real.sqrt (1 - 1 / lorentz c m px py pz ^ 2) * c
  | "vx" => px / (lorentz c m px py pz * m)
  | "vy" => py / (lorentz c m px py pz * m)
  | "vz" => pz / (lorentz c m px py pz * m)
  | "betax" => px / (lorentz c m px py pz * m * c)
  | "betay" => py / (lorentz c m px py pz * m * c)
  | "betaz" => pz / (lorentz c m px py pz * m * c)
  | "Eruhe" => m * c ^ 2
  | "Ekin" => (lorentz c m px py pz - 1) * m * c ^ 2
  | "angle_xy" => Complex.arg ⟨px, py⟩
  | "angle_yx" => Complex.arg ⟨py, px⟩
  | "angle_yz" => Complex.arg ⟨py, pz⟩
  | "angle_zy" => Complex.arg ⟨pz, py⟩
  | "angle_zx" => Complex.arg ⟨pz, px⟩
  | "angle_xz" => Complex.arg ⟨px, pz⟩
  | "angle_xaxis" => Complex.arg ⟨px, Real.sqrt (py ^ 2 + pz ^ 2)⟩
  | "angle_yaxis" => Complex.arg ⟨py, Real.sqrt (pz ^ 2 + px ^ 2)⟩
  | "angle_zaxis" => Complex.arg ⟨pz, Real.sqrt (px ^ 2 + py ^ 2)⟩
  | _ => 0

/-- The scalars of the table above which are computed from others. -/
def momentumScalars : List String :=
  ["px", "py", "pz", "mass", "p", "gamma", "gamma_m1", "gamma_m", "beta", "v", "vx", "vy", "vz",
    "betax", "betay", "betaz", "Eruhe", "Ekin", "angle_xy", "angle_yx", "angle_yz", "angle_zy",
    "angle_zx", "angle_xz", "angle_xaxis", "angle_yaxis", "angle_zaxis"]

/-- The dump contains momentum and mass, and `scipy.constants.c` is `c`. -/
structure HasMomentum (src : Sources) (c m px py pz : ℝ) : Prop where
  px : src.atomic "px" = some px
  py : src.atomic "py" = some py
  pz : src.atomic "pz" = some pz
  mass : src.atomic "mass" = some m
  c : src.constants "c" = some c

theorem lorentz_sq (c m px py pz : ℝ) :
    lorentz c m px py pz ^ 2 = 1 + (px ^ 2 + py ^ 2 + pz ^ 2) / (m * c) ^ 2 := by
  unfold lorentz
  exact Real.sq_sqrt (by positivity)

theorem one_le_lorentz (c m px py pz : ℝ) : 1 ≤ lorentz c m px py pz := by
  unfold lorentz
  rw [Real.one_le_sqrt]
  have : 0 ≤ (px ^ 2 + py ^ 2 + pz ^ 2) / (m * c) ^ 2 := by positivity
  linarith

theorem means_scalar {src : Sources} {name : String} {e : Expr} {env : String → ℝ} {v : ℝ}
    (h : fullname name ∉ atomicProps) (he : defaultRegistry.exprs name = some e)
    (henv : ∀ x ∈ e.vars, Means defaultRegistry.exprs src x (env x)) (hv : v = e.eval env) :
    Means defaultRegistry.exprs src name v := by
  rw [hv]; exact Means.scalar name e env h he henv

/-- The stable formula for `gamma - 1` is right. -/
theorem gamma_m1_formula (c m px py pz : ℝ) :
    lorentz c m px py pz - 1 = (px ^ 2 + py ^ 2 + pz ^ 2) / (m * c) ^ 2 /
      (Real.sqrt (1 + (px ^ 2 + py ^ 2 + pz ^ 2) / (m * c) ^ 2) + 1) := by
  have h1 := lorentz_sq c m px py pz
  have h2 := one_le_lorentz c m px py pz
  have : Real.sqrt (1 + (px ^ 2 + py ^ 2 + pz ^ 2) / (m * c) ^ 2) = lorentz c m px py pz := rfl
  rw [this, eq_div_iff (by linarith)]
  linarith [h1]

/-- The stable formula for `beta` is right. -/
theorem beta_formula (c m px py pz : ℝ) :
    Real.sqrt (1 - 1 / lorentz c m px py pz ^ 2) =
      Real.sqrt ((lorentz c m px py pz - 1) ^ 2 + 2 * (lorentz c m px py pz - 1)) /
        (lorentz c m px py pz - 1 + 1) := by
  have h2 := one_le_lorentz c m px py pz
  set g := lorentz c m px py pz
  have hg : 0 < g := by linarith
  have e1 : (g - 1) ^ 2 + 2 * (g - 1) = g ^ 2 - 1 := by ring
  have e2 : 1 - 1 / g ^ 2 = (g ^ 2 - 1) / g ^ 2 := by field_simp
  have e3 : g - 1 + 1 = g := by ring
  rw [e1, e2, e3, Real.sqrt_div' _ (sq_nonneg g), Real.sqrt_sq hg.le]

theorem means_all (src : Sources) (c m px py pz : ℝ) (hs : HasMomentum src c m px py pz) :
    ∀ x, x ∈ "c" :: "_np2" :: momentumScalars →
      Means defaultRegistry.exprs src x (meaning c m px py pz x) := by
  have hpx : Means defaultRegistry.exprs src "px" px := .atomic _ _ (by decide) hs.px
  have hpy : Means defaultRegistry.exprs src "py" py := .atomic _ _ (by decide) hs.py
  have hpz : Means defaultRegistry.exprs src "pz" pz := .atomic _ _ (by decide) hs.pz
  have hm : Means defaultRegistry.exprs src "mass" m := .atomic _ _ (by decide) hs.mass
  have hc : Means defaultRegistry.exprs src "c" c :=
    .constant _ _ (by decide) (by decide +kernel) hs.c
  have h_p : Means defaultRegistry.exprs src "p" (meaning c m px py pz "p") :=
    means_scalar (env := meaning c m px py pz)
      (e := .sqrt (.add (.add (.pow (.var "px") 2) (.pow (.var "py") 2)) (.pow (.var "pz") 2)))
      (by decide) (by decide +kernel)
      (by simp only [Expr.vars, List.cons_append, List.nil_append, List.forall_mem_cons]
          exact ⟨hpx, hpy, hpz, by simp⟩)
      rfl
  have h__np2 : Means defaultRegistry.exprs src "_np2" (meaning c m px py pz "_np2") :=
    means_scalar (env := meaning c m px py pz)
      (e := .div (.add (.add (.pow (.var "px") 2) (.pow (.var "py") 2)) (.pow (.var "pz") 2)) (.pow (.mul (.var "mass") (.var "c")) 2))
      (by decide) (by decide +kernel)
      (by simp only [Expr.vars, List.cons_append, List.nil_append, List.forall_mem_cons]
          exact ⟨hpx, hpy, hpz, hm, hc, by simp⟩)
      rfl
  have h_gamma : Means defaultRegistry.exprs src "gamma" (meaning c m px py pz "gamma") :=
    means_scalar (env := meaning c m px py pz)
      (e := .add (.div (.var "_np2") (.add (.sqrt (.add (.num 1) (.var "_np2"))) (.num 1))) (.num 1))
      (by decide) (by decide +kernel)
      (by simp only [Expr.vars, List.cons_append, List.nil_append, List.forall_mem_cons]
          exact ⟨h__np2, h__np2, by simp⟩)
      (by
      have h := gamma_m1_formula c m px py pz
      simp only [Expr.eval, Rat.cast_one]
      show lorentz c m px py pz = (px ^ 2 + py ^ 2 + pz ^ 2) / (m * c) ^ 2 /
        (Real.sqrt (1 + (px ^ 2 + py ^ 2 + pz ^ 2) / (m * c) ^ 2) + 1) + 1
      linarith)
  have h_gamma_m1 : Means defaultRegistry.exprs src "gamma_m1" (meaning c m px py pz "gamma_m1") :=
    means_scalar (env := meaning c m px py pz)
      (e := .div (.var "_np2") (.add (.sqrt (.add (.num 1) (.var "_np2"))) (.num 1)))
      (by decide) (by decide +kernel)
      (by simp only [Expr.vars, List.cons_append, List.nil_append, List.forall_mem_cons]
          exact ⟨h__np2, h__np2, by simp⟩)
      (by
      have h := gamma_m1_formula c m px py pz
      simp only [Expr.eval, Rat.cast_one]
      exact h)
  have h_gamma_m : Means defaultRegistry.exprs src "gamma_m" (meaning c m px py pz "gamma_m") :=
    means_scalar (env := meaning c m px py pz)
      (e := .mul (.var "gamma") (.var "mass"))
      (by decide) (by decide +kernel)
      (by simp only [Expr.vars, List.cons_append, List.nil_append, List.forall_mem_cons]
          exact ⟨h_gamma, hm, by simp⟩)
      rfl
  have h_beta : Means defaultRegistry.exprs src "beta" (meaning c m px py pz "beta") :=
    means_scalar (env := meaning c m px py pz)
      (e := .div (.sqrt (.add (.pow (.var "gamma_m1") 2) (.mul (.num 2) (.var "gamma_m1")))) (.add (.var "gamma_m1") (.num 1)))
      (by decide) (by decide +kernel)
      (by simp only [Expr.vars, List.cons_append, List.nil_append, List.forall_mem_cons]
          exact ⟨h_gamma_m1, h_gamma_m1, h_gamma_m1, by simp⟩)
      (by
      have h := beta_formula c m px py pz
      simp only [Expr.eval, Rat.cast_one, Rat.cast_ofNat]
      exact h)
  have h_v : Means defaultRegistry.exprs src "v" (meaning c m px py pz "v") :=
    means_scalar (env := meaning c m px py pz)
      (e := .mul (.var "beta") (.var "c"))
      (by decide) (by decide +kernel)
      (by simp only [Expr.vars, List.cons_append, List.nil_append, List.forall_mem_cons]
          exact ⟨h_beta, hc, by simp⟩)
      rfl
  have h_vx : Means defaultRegistry.exprs src "vx" (meaning c m px py pz "vx") :=
    means_scalar (env := meaning c m px py pz)
      (e := .div (.var "px") (.mul (.var "gamma") (.var "mass")))
      (by decide) (by decide +kernel)
      (by simp only [Expr.vars, List.cons_append, List.nil_append, List.forall_mem_cons]
          exact ⟨hpx, h_gamma, hm, by simp⟩)
      rfl
  have h_vy : Means defaultRegistry.exprs src "vy" (meaning c m px py pz "vy") :=
    means_scalar (env := meaning c m px py pz)
      (e := .div (.var "py") (.mul (.var "gamma") (.var "mass")))
      (by decide) (by decide +kernel)
      (by simp only [Expr.vars, List.cons_append, List.nil_append, List.forall_mem_cons]
          exact ⟨hpy, h_gamma, hm, by simp⟩)
      rfl
  have h_vz : Means defaultRegistry.exprs src "vz" (meaning c m px py pz "vz") :=
    means_scalar (env := meaning c m px py pz)
      (e := .div (.var "pz") (.mul (.var "gamma") (.var "mass")))
      (by decide) (by decide +kernel)
      (by simp only [Expr.vars, List.cons_append, List.nil_append, List.forall_mem_cons]
          exact ⟨hpz, h_gamma, hm, by simp⟩)
      rfl
  have h_betax : Means defaultRegistry.exprs src "betax" (meaning c m px py pz "betax") :=
    means_scalar (env := meaning c m px py pz)
      (e := .div (.var "vx") (.var "c"))
      (by decide) (by decide +kernel)
      (by simp only [Expr.vars, List.cons_append, List.nil_append, List.forall_mem_cons]
          exact ⟨h_vx, hc, by simp⟩)
      (by
      simp only [Expr.eval]
      show px / (lorentz c m px py pz * m * c) = px / (lorentz c m px py pz * m) / c
      rw [div_div])
  have h_betay : Means defaultRegistry.exprs src "betay" (meaning c m px py pz "betay") :=
    means_scalar (env := meaning c m px py pz)
      (e := .div (.var "vy") (.var "c"))
      (by decide) (by decide +kernel)
      (by simp only [Expr.vars, List.cons_append, List.nil_append, List.forall_mem_cons]
          exact ⟨h_vy, hc, by simp⟩)
      (by
      simp only [Expr.eval]
      show py / (lorentz c m px py pz * m * c) = py / (lorentz c m px py pz * m) / c
      rw [div_div])
  have h_betaz : Means defaultRegistry.exprs src "betaz" (meaning c m px py pz "betaz") :=
    means_scalar (env := meaning c m px py pz)
      (e := .div (.var "vz") (.var "c"))
      (by decide) (by decide +kernel)
      (by simp only [Expr.vars, List.cons_append, List.nil_append, List.forall_mem_cons]
          exact ⟨h_vz, hc, by simp⟩)
      (by
      simp only [Expr.eval]
      show pz / (lorentz c m px py pz * m * c) = pz / (lorentz c m px py pz * m) / c
      rw [div_div])
  have h_Eruhe : Means defaultRegistry.exprs src "Eruhe" (meaning c m px py pz "Eruhe") :=
    means_scalar (env := meaning c m px py pz)
      (e := .mul (.var "mass") (.pow (.var "c") 2))
      (by decide) (by decide +kernel)
      (by simp only [Expr.vars, List.cons_append, List.nil_append, List.forall_mem_cons]
          exact ⟨hm, hc, by simp⟩)
      rfl
  have h_Ekin : Means defaultRegistry.exprs src "Ekin" (meaning c m px py pz "Ekin") :=
    means_scalar (env := meaning c m px py pz)
      (e := .mul (.mul (.var "gamma_m1") (.var "mass")) (.pow (.var "c") 2))
      (by decide) (by decide +kernel)
      (by simp only [Expr.vars, List.cons_append, List.nil_append, List.forall_mem_cons]
          exact ⟨h_gamma_m1, hm, hc, by simp⟩)
      rfl
  have h_angle_xy : Means defaultRegistry.exprs src "angle_xy" (meaning c m px py pz "angle_xy") :=
    means_scalar (env := meaning c m px py pz)
      (e := .arctan2 (.var "py") (.var "px"))
      (by decide) (by decide +kernel)
      (by simp only [Expr.vars, List.cons_append, List.nil_append, List.forall_mem_cons]
          exact ⟨hpy, hpx, by simp⟩)
      rfl
  have h_angle_yx : Means defaultRegistry.exprs src "angle_yx" (meaning c m px py pz "angle_yx") :=
    means_scalar (env := meaning c m px py pz)
      (e := .arctan2 (.var "px") (.var "py"))
      (by decide) (by decide +kernel)
      (by simp only [Expr.vars, List.cons_append, List.nil_append, List.forall_mem_cons]
          exact ⟨hpx, hpy, by simp⟩)
      rfl
  have h_angle_yz : Means defaultRegistry.exprs src "angle_yz" (meaning c m px py pz "angle_yz") :=
    means_scalar (env := meaning c m px py pz)
      (e := .arctan2 (.var "pz") (.var "py"))
      (by decide) (by decide +kernel)
      (by simp only [Expr.vars, List.cons_append, List.nil_append, List.forall_mem_cons]
          exact ⟨hpz, hpy, by simp⟩)
      rfl
  have h_angle_zy : Means defaultRegistry.exprs src "angle_zy" (meaning c m px py pz "angle_zy") :=
    means_scalar (env := meaning c m px py pz)
      (e := .arctan2 (.var "py") (.var "pz"))
      (by decide) (by decide +kernel)
      (by simp only [Expr.vars, List.cons_append, List.nil_append, List.forall_mem_cons]
          exact ⟨hpy, hpz, by simp⟩)
      rfl
  have h_angle_zx : Means defaultRegistry.exprs src "angle_zx" (meaning c m px py pz "angle_zx") :=
    means_scalar (env := meaning c m px py pz)
      (e := .arctan2 (.var "px") (.var "pz"))
      (by decide) (by decide +kernel)
      (by simp only [Expr.vars, List.cons_append, List.nil_append, List.forall_mem_cons]
          exact ⟨hpx, hpz, by simp⟩)
      rfl
  have h_angle_xz : Means defaultRegistry.exprs src "angle_xz" (meaning c m px py pz "angle_xz") :=
    means_scalar (env := meaning c m px py pz)
      (e := .arctan2 (.var "pz") (.var "px"))
      (by decide) (by decide +kernel)
      (by simp only [Expr.vars, List.cons_append, List.nil_append, List.forall_mem_cons]
          exact ⟨hpz, hpx, by simp⟩)
      rfl
  have h_angle_xaxis : Means defaultRegistry.exprs src "angle_xaxis" (meaning c m px py pz "angle_xaxis") :=
    means_scalar (env := meaning c m px py pz)
      (e := .arctan2 (.sqrt (.add (.pow (.var "py") 2) (.pow (.var "pz") 2))) (.var "px"))
      (by decide) (by decide +kernel)
      (by simp only [Expr.vars, List.cons_append, List.nil_append, List.forall_mem_cons]
          exact ⟨hpy, hpz, hpx, by simp⟩)
      rfl
  have h_angle_yaxis : Means defaultRegistry.exprs src "angle_yaxis" (meaning c m px py pz "angle_yaxis") :=
    means_scalar (env := meaning c m px py pz)
      (e := .arctan2 (.sqrt (.add (.pow (.var "pz") 2) (.pow (.var "px") 2))) (.var "py"))
      (by decide) (by decide +kernel)
      (by simp only [Expr.vars, List.cons_append, List.nil_append, List.forall_mem_cons]
          exact ⟨hpz, hpx, hpy, by simp⟩)
      rfl
  have h_angle_zaxis : Means defaultRegistry.exprs src "angle_zaxis" (meaning c m px py pz "angle_zaxis") :=
    means_scalar (env := meaning c m px py pz)
      (e := .arctan2 (.sqrt (.add (.pow (.var "px") 2) (.pow (.var "py") 2))) (.var "pz"))
      (by decide) (by decide +kernel)
      (by simp only [Expr.vars, List.cons_append, List.nil_append, List.forall_mem_cons]
          exact ⟨hpx, hpy, hpz, by simp⟩)
      rfl
  simp only [momentumScalars, List.forall_mem_cons]
  exact ⟨hc, h__np2, hpx, hpy, hpz, hm, h_p, h_gamma, h_gamma_m1, h_gamma_m, h_beta, h_v, h_vx, h_vy, h_vz, h_betax, h_betay, h_betaz, h_Eruhe, h_Ekin, h_angle_xy, h_angle_yx, h_angle_yz, h_angle_zy, h_angle_zx, h_angle_xz, h_angle_xaxis, h_angle_yaxis, h_angle_zaxis, by simp⟩

/-- C15: reading a predefined scalar which depends on momentum and mass gives the relativistic
value, for all momenta and masses (whatever else the dump contains, in whatever order the variables
are visited). -/
theorem scalar_values (order : Expr → List String) (horder : ∀ e x, x ∈ order e ↔ x ∈ e.vars)
    (src : Sources) (c m px py pz : ℝ) (hs : HasMomentum src c m px py pz) (fuel : ℕ)
    (hf : 6 ≤ fuel) (name : String) (hname : name ∈ momentumScalars) :
    readText order defaultRegistry src fuel name = some (.ok (meaning c m px py pz name)) := by
  have hreg : ∀ name ∈ momentumScalars, ((parse (defaultRegistry.call name).expr).isSome ∧
      (fullname name ∉ atomicProps →
        parse (defaultRegistry.call name).expr = defaultRegistry.exprs name) ∧
      (fullname name ∈ atomicProps →
        parse (defaultRegistry.call name).expr = some (.var name))) := by decide +kernel
  obtain ⟨h1, h2, h3⟩ := hreg name hname
  obtain ⟨e, he⟩ := Option.isSome_iff_exists.1 h1
  have hm := means_all src c m px py pz hs name (by simp [hname])
  have hme : MeansExpr defaultRegistry.exprs src e (meaning c m px py pz name) := by
    by_cases ha : fullname name ∈ atomicProps
    · rw [h3 ha] at he
      cases he
      exact ⟨meaning c m px py pz, by simpa [Expr.vars] using hm, rfl⟩
    · have hex := h2 ha
      rw [he] at hex
      generalize hv : meaning c m px py pz name = v at hm
      cases hm with
      | atomic _ _ h => exact absurd h ha
      | scalar _ e' env _ he' henv =>
        rw [← hex] at he'
        cases he'
        exact ⟨env, henv, rfl⟩
      | constant _ _ _ he' => rw [← hex] at he'; cases he'
      | numpy _ _ _ he' => rw [← hex] at he'; cases he'
  unfold readText
  rw [he]
  simp only [Option.map_some, Option.some.injEq]
  rcases default_terminates order horder src fuel hf e with ⟨v, hv, h⟩ | ⟨h, _⟩
  · rw [h, meansExpr_unique hv hme]
  · exact absurd ⟨_, hme⟩ h

/-- C15: the relativistic relations between the values (`meaning`) which `scalar_values` shows to be
those returned, for all real momenta and positive masses. -/
theorem relativistic_relations (c m px py pz : ℝ) (hc : 0 < c) (hm : 0 < m) :
    let val := meaning c m px py pz
    1 ≤ val "gamma" ∧
    val "gamma" ^ 2 = 1 + (val "p" / (m * c)) ^ 2 ∧
    val "gamma_m1" = val "gamma" - 1 ∧
    0 ≤ val "beta" ∧ val "beta" < 1 ∧
    val "gamma" = 1 / Real.sqrt (1 - val "beta" ^ 2) ∧
    val "v" = val "beta" * c ∧
    val "v" ^ 2 = val "vx" ^ 2 + val "vy" ^ 2 + val "vz" ^ 2 ∧
    val "beta" ^ 2 = val "betax" ^ 2 + val "betay" ^ 2 + val "betaz" ^ 2 ∧
    val "Ekin" = (val "gamma" - 1) * m * c ^ 2 ∧
    (val "Ekin" + val "Eruhe") ^ 2 = (val "p" * c) ^ 2 + (m * c ^ 2) ^ 2 ∧
    val "p" = val "gamma_m" * val "v" := by
  have h1 := lorentz_sq c m px py pz
  have h2 := one_le_lorentz c m px py pz
  have hP : (0 : ℝ) ≤ px ^ 2 + py ^ 2 + pz ^ 2 := by positivity
  simp only [meaning]
  set g := lorentz c m px py pz with hg
  set P := px ^ 2 + py ^ 2 + pz ^ 2 with hPdef
  have hgpos : 0 < g := by linarith
  have hinv : 1 / g ^ 2 ≤ 1 := by
    rw [div_le_one (by positivity)]; nlinarith
  have hinvpos : 0 < 1 / g ^ 2 := by positivity
  have hb : Real.sqrt (1 - 1 / g ^ 2) ^ 2 = 1 - 1 / g ^ 2 := Real.sq_sqrt (by linarith)
  have hp : Real.sqrt P ^ 2 = P := Real.sq_sqrt hP
  have hmc : m * c ≠ 0 := by positivity
  have hP' : P = (g ^ 2 - 1) * (m * c) ^ 2 := by
    rw [h1]; field_simp; ring
  refine ⟨h2, ?_, trivial, Real.sqrt_nonneg _, ?_, ?_, trivial, ?_, ?_, trivial, ?_, ?_⟩
  · rw [div_pow, hp, h1]
  · rw [Real.sqrt_lt' one_pos]; linarith
  · rw [hb, show 1 - (1 - 1 / g ^ 2) = 1 / g ^ 2 by ring, Real.sqrt_div zero_le_one, Real.sqrt_one,
      Real.sqrt_sq hgpos.le, one_div_one_div]
  · rw [mul_pow, hb, div_pow, div_pow, div_pow, ← add_div, ← add_div, ← hPdef, hP']
    field_simp
  · rw [hb, div_pow, div_pow, div_pow, ← add_div, ← add_div, ← hPdef, hP']
    field_simp
  · rw [mul_pow, hp, hP']; ring
  · have : 0 ≤ g * m * (Real.sqrt (1 - 1 / g ^ 2) * c) := by positivity
    rw [← Real.sqrt_sq this]
    congr 1
    rw [mul_pow, mul_pow, mul_pow, hb, hP']
    field_simp

/-- The angle to an axis is between 0 and π, and its cosine is the component along the axis. -/
theorem angle_to_axis (c m px py pz : ℝ) (hp : (px, py, pz) ≠ (0, 0, 0)) :
    let val := meaning c m px py pz
    0 ≤ val "angle_xaxis" ∧ val "angle_xaxis" ≤ Real.pi ∧
    val "p" * Real.cos (val "angle_xaxis") = px ∧
    val "p" * Real.cos (val "angle_yaxis") = py ∧
    val "p" * Real.cos (val "angle_zaxis") = pz := by
  have key : ∀ a b c : ℝ, (a, b, c) ≠ (0, 0, 0) →
      Real.sqrt (a ^ 2 + b ^ 2 + c ^ 2) * Real.cos (Complex.arg ⟨a, Real.sqrt (b ^ 2 + c ^ 2)⟩) = a := by
    intro a b c h
    have hne : (⟨a, Real.sqrt (b ^ 2 + c ^ 2)⟩ : ℂ) ≠ 0 := by
      intro h0
      have h1 := congrArg Complex.re h0
      have h2 := congrArg Complex.im h0
      simp only [Complex.zero_re, Complex.zero_im] at h1 h2
      rw [Real.sqrt_eq_zero (by positivity)] at h2
      have hb : b = 0 := by nlinarith [sq_nonneg b, sq_nonneg c]
      have hc : c = 0 := by nlinarith [sq_nonneg b, sq_nonneg c]
      exact h (by rw [h1, hb, hc])
    have hn : ‖(⟨a, Real.sqrt (b ^ 2 + c ^ 2)⟩ : ℂ)‖ = Real.sqrt (a ^ 2 + b ^ 2 + c ^ 2) := by
      rw [Complex.norm_def, Complex.normSq_mk, Real.mul_self_sqrt (by positivity)]
      congr 1; ring
    rw [Complex.cos_arg hne, hn]
    have : Real.sqrt (a ^ 2 + b ^ 2 + c ^ 2) ≠ 0 := by
      rw [← hn]; simpa using hne
    field_simp
  simp only [meaning]
  refine ⟨?_, Complex.arg_le_pi _, key px py pz hp, ?_, ?_⟩
  · exact Complex.arg_nonneg_iff.2 (Real.sqrt_nonneg _)
  · have := key py pz px (by rintro h; simp only [Prod.mk.injEq] at h; exact hp (by simp [h]))
    rw [show px ^ 2 + py ^ 2 + pz ^ 2 = py ^ 2 + pz ^ 2 + px ^ 2 by ring]
    exact this
  · have := key pz px py (by rintro h; simp only [Prod.mk.injEq] at h; exact hp (by simp [h]))
    rw [show px ^ 2 + py ^ 2 + pz ^ 2 = pz ^ 2 + px ^ 2 + py ^ 2 by ring]
    exact this

theorem means_of_fullname {reg : String → Option Expr} {src : Sources} {name : String} {v : ℝ}
    (ha : fullname name ∈ atomicProps) :
    Means reg src (fullname name) v ↔ Means reg src name v := by
  refine ⟨means_fullname, fun h => ?_⟩
  cases h with
  | atomic _ _ h hv =>
    exact Means.atomic _ _ (by rw [fullname_fullname]; exact ha) (by rw [fullname_fullname]; exact hv)
  | scalar _ _ _ h' => exact absurd ha h'
  | constant _ _ h' => exact absurd ha h'
  | numpy _ _ h' => exact absurd ha h'

/-- C17: asking for a predefined scalar by its symbol gives the same as using the symbol as a
variable in an expression. -/
theorem symbol_consistent (order : Expr → List String) (horder : ∀ e x, x ∈ order e ↔ x ∈ e.vars)
    (src : Sources) (fuel : ℕ) (hf : 6 ≤ fuel) (p : String × SP) (hp : p ∈ defaultRegistry) :
    readText order defaultRegistry src fuel p.1
      = some (evalSp order defaultRegistry.exprs src fuel (.var p.1) fun _ => none).1 := by
  have hreg : ∀ p ∈ defaultRegistry, ((parse (defaultRegistry.call p.1).expr).isSome ∧
      (fullname p.1 ∉ atomicProps →
        parse (defaultRegistry.call p.1).expr = defaultRegistry.exprs p.1) ∧
      (fullname p.1 ∈ atomicProps →
        parse (defaultRegistry.call p.1).expr = some (.var (fullname p.1)))) := by decide +kernel
  obtain ⟨h1, h2, h3⟩ := hreg p hp
  obtain ⟨e, he⟩ := Option.isSome_iff_exists.1 h1
  have hiff : ∀ v, MeansExpr defaultRegistry.exprs src e v ↔
      MeansExpr defaultRegistry.exprs src (.var p.1) v := by
    intro v
    have hvar : ∀ (s : String), MeansExpr defaultRegistry.exprs src (.var s) v ↔
        Means defaultRegistry.exprs src s v := by
      intro s
      constructor
      · rintro ⟨env, h, rfl⟩
        exact h s (by simp [Expr.vars])
      · intro h
        exact ⟨fun _ => v, by simpa [Expr.vars] using h, rfl⟩
    rw [hvar]
    by_cases ha : fullname p.1 ∈ atomicProps
    · rw [h3 ha] at he
      cases he
      rw [hvar, means_of_fullname ha]
    · have hex := h2 ha
      rw [he] at hex
      constructor
      · rintro ⟨env, h, rfl⟩
        exact Means.scalar _ e env ha hex.symm h
      · intro h
        cases h with
        | atomic _ _ h => exact absurd h ha
        | scalar _ e' env _ he' henv =>
          rw [← hex] at he'
          cases he'
          exact ⟨env, henv, rfl⟩
        | constant _ _ _ he' => rw [← hex] at he'; cases he'
        | numpy _ _ _ he' => rw [← hex] at he'; cases he'
  unfold readText
  rw [he]
  simp only [Option.map_some, Option.some.injEq]
  rcases default_terminates order horder src fuel hf e with ⟨v, hv, h⟩ | ⟨h, h'⟩ <;>
  rcases default_terminates order horder src fuel hf (.var p.1) with ⟨w, hw, k⟩ | ⟨k, k'⟩
  · rw [h, k, meansExpr_unique ((hiff v).1 hv) hw]
  · exact absurd ⟨v, (hiff v).1 hv⟩ k
  · exact absurd ⟨w, (hiff w).2 hw⟩ h
  · rw [h', k']

/-- Example: there are such dumps, and a valid order of variables. -/
example : HasMomentum
    ⟨fun s => if s = "px" then some 3 else if s = "py" then some 4 else if s = "pz" then some 0
      else if s = "mass" then some 1 else none, fun _ => none,
      fun s => if s = "c" then some 2 else none⟩ 2 1 3 4 0 :=
  ⟨by simp, by simp, by simp, by simp, by simp⟩

example : ∀ (e : Expr) (x : String), x ∈ Expr.vars e ↔ x ∈ e.vars := fun _ _ => Iff.rfl

end Postpic.Props
