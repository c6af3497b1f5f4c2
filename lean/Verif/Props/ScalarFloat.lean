import Verif.Lemmas.Near
import Verif.Lemmas.ScalarFloat
import Verif.Props.ScalarUnits

/-!
# The accuracy of particle scalars
-/

set_option autoImplicit false

namespace Postpic.Props

open Postpic Postpic.Scalars Postpic.Spec Postpic.Histogram

noncomputable section

variable {rnd : ℝ → Dbl ℝ} {u : ℝ}

/-! ## C124: energies and velocities of slow particles lose no digits -/

/-- C124: an expression without subtraction, in which numbers of known sign are added and only positive numbers are divisors, is computed
with as many roundings as `roundings` counts, for every table of scalars and all particles. -/
theorem scalar_rounded (A : Accurate rnd u) (hu : u < 1) (r : Registry) (src : Sources) (base : String → Sign) (hb : SignsOf base src)
    (fuel : ℕ) (text : String) (e : Expr) (hp : parse (r.call text).expr = some e) (v : ℝ) (hm : MeansExpr r.exprs src e v) (s : Sign) (k : ℕ)
    (hk : roundings (roundingsOf r.exprs base fuel) e = some (s, k)) :
    ∃ y, readTextF rnd r src fuel text = some (.ok (.fin y)) ∧ Within u k v y := by
  obtain ⟨env, henv, rfl⟩ := hm
  obtain ⟨-, y, h1, h2⟩ := evalF_within A hu env (nameF rnd r.exprs src fuel) (roundingsOf r.exprs base fuel) e
    (fun x hx s k hs => nameF_within A hu r.exprs src base hb fuel x (env x) (henv x hx) s k hs) s k hk
  refine ⟨y, ?_, h2⟩
  unfold readTextF
  rw [hp, Option.map_some, h1]

/-- C124: sums and differences of two such expressions, also if digits cancel. The error is at most a number of roundings of the sum of the
absolute values of both parts, hence a few roundings of the larger one. -/
theorem scalar_difference_rounded (A : Accurate rnd u) (r : Registry) (src : Sources) (base : String → Sign) (hb : SignsOf base src)
    (fuel : ℕ) (text : String) (a b : Expr) (v w : ℝ) (hv : MeansExpr r.exprs src a v) (hw : MeansExpr r.exprs src b w) (s t : Sign) (k : ℕ)
    (hs : roundings (roundingsOf r.exprs base fuel) a = some (s, k)) (l : ℕ) (ht : roundings (roundingsOf r.exprs base fuel) b = some (t, l))
    (hu : ((max k l + 1 : ℕ) : ℝ) * u ≤ 1 / 2) (hu1 : u < 1) :
    (parse (r.call text).expr = some (.sub a b) → ∃ y, readTextF rnd r src fuel text = some (.ok (.fin y)) ∧
      |y - (v - w)| ≤ 2 * (max k l + 1 : ℕ) * u * (|v| + |w|)) ∧
    (parse (r.call text).expr = some (.add a b) → ∃ y, readTextF rnd r src fuel text = some (.ok (.fin y)) ∧
      |y - (v + w)| ≤ 2 * (max k l + 1 : ℕ) * u * (|v| + |w|)) := by
  have hu0 := A.nonneg
  obtain ⟨env, henv, rfl⟩ := hv
  obtain ⟨env', henv', rfl⟩ := hw
  obtain ⟨-, x, x1, x2⟩ := evalF_within A hu1 env (nameF rnd r.exprs src fuel) (roundingsOf r.exprs base fuel) a
    (fun x hx s k hs => nameF_within A hu1 r.exprs src base hb fuel x (env x) (henv x hx) s k hs) s k hs
  obtain ⟨-, y, y1, y2⟩ := evalF_within A hu1 env' (nameF rnd r.exprs src fuel) (roundingsOf r.exprs base fuel) b
    (fun x hx s k hs => nameF_within A hu1 r.exprs src base hb fuel x (env' x) (henv' x hx) s k hs) t l ht
  have nx := near_mono hu0 hu1 (le_max_left k l) (near_of_within hu0 hu1 x2)
  have ny := near_mono hu0 hu1 (le_max_right k l) (near_of_within hu0 hu1 y2)
  constructor
  · intro hp
    obtain ⟨z, z1, z2⟩ := sub_near A x y
    refine ⟨z, ?_, ?_⟩
    · unfold readTextF
      rw [hp, Option.map_some]
      simp only [Expr.evalF, x1, y1, bind, Except.bind, pure, Except.pure, z1]
    · have h := Postpic.Spec.near_add hu0 hu1 nx (near_neg ny)
      rw [← sub_eq_add_neg, ← sub_eq_add_neg] at h
      exact near_error hu0 hu (near_round hu0 hu1 h z2)
  · intro hp
    obtain ⟨z, z1, z2⟩ := add_near A x y
    refine ⟨z, ?_, near_error hu0 hu (near_round hu0 hu1 (Postpic.Spec.near_add hu0 hu1 nx ny) z2)⟩
    unfold readTextF
    rw [hp, Option.map_some]
    simp only [Expr.evalF, x1, y1, bind, Except.bind, pure, Except.pure, z1]

/-- Mass, speed of light, elementary charge and atomic mass unit are positive; nothing is known about the others. -/
def physicalSigns (s : String) : Sign :=
  if s = "mass" ∨ s = "c" ∨ s = "elementary_charge" ∨ s = "atomic_mass" then .pos else .any

/-- Only the mass and the speed of light. -/
def momentumSigns (s : String) : Sign := if s = "mass" ∨ s = "c" then .pos else .any

/-- The number of roundings of a predefined scalar. -/
def countOf (base : String → Sign) (name : String) : Option ℕ :=
  match parse (defaultRegistry.call name).expr with
  | some e => (roundings (roundingsOf defaultRegistry.exprs base 6) e).map (·.2)
  | none => none

theorem momentumSigns_of {src : Sources} {c m px py pz : ℝ} (hs : HasMomentum src c m px py pz) (hm : 0 < m) (hc : 0 < c) :
    SignsOf momentumSigns src := by
  have e1 : fullname "mass" = "mass" := by decide
  have e2 : "mass" ∈ atomicProps := by decide
  have e3 : "c" ∉ atomicProps := by decide
  refine ⟨fun s v ha hv => ?_, fun s v ha hv => ?_, fun s v ha hcn hv => ?_⟩
  · unfold momentumSigns
    split_ifs with h
    · rcases h with rfl | rfl
      · rw [hs.mass] at hv
        cases hv
        exact hm
      · exact absurd ha e3
    · trivial
  · unfold momentumSigns
    split_ifs with h
    · rcases h with rfl | rfl
      · rw [e1] at ha
        exact absurd e2 ha
      · rw [hs.c] at hv
        cases hv
        exact hc
    · trivial
  · unfold momentumSigns
    split_ifs with h
    · rcases h with rfl | rfl
      · rw [e1] at ha
        exact absurd e2 ha
      · rw [hs.c] at hcn
        cases hcn
    · trivial

theorem physicalSigns_of {src : Sources} {r : Record} (hs : HasRecord src r) (hm : 0 < r.mass) (hc : 0 < r.c) (he : 0 < r.e) (hu : 0 < r.u) :
    SignsOf physicalSigns src := by
  have e1 : fullname "mass" = "mass" := by decide
  have e2 : "mass" ∈ atomicProps := by decide
  have e3 : "c" ∉ atomicProps := by decide
  have e4 : "elementary_charge" ∉ atomicProps := by decide
  have e5 : "atomic_mass" ∉ atomicProps := by decide
  refine ⟨fun s v ha hv => ?_, fun s v ha hv => ?_, fun s v ha hcn hv => ?_⟩
  · unfold physicalSigns
    split_ifs with h
    · rcases h with rfl | rfl | rfl | rfl
      · rw [hs.mass] at hv
        cases hv
        exact hm
      · exact absurd ha e3
      · exact absurd ha e4
      · exact absurd ha e5
    · trivial
  · unfold physicalSigns
    split_ifs with h
    · rcases h with rfl | rfl | rfl | rfl
      · rw [e1] at ha
        exact absurd e2 ha
      · rw [hs.c] at hv
        cases hv
        exact hc
      · rw [hs.e] at hv
        cases hv
        exact he
      · rw [hs.u] at hv
        cases hv
        exact hu
    · trivial
  · unfold physicalSigns
    split_ifs with h
    · rcases h with rfl | rfl | rfl | rfl
      · rw [e1] at ha
        exact absurd e2 ha
      · rw [hs.c] at hcn
        cases hcn
      · rw [hs.e] at hcn
        cases hcn
      · rw [hs.u] at hcn
        cases hcn
    · trivial

/-- A predefined scalar which means `v` is computed with the relative error of the number of its roundings. -/
theorem default_rounded (A : Accurate rnd u) (src : Sources) (base : String → Sign) (hb : SignsOf base src)
    (fuel : ℕ) (hf : 6 ≤ fuel) (name : String) (hname : name ∈ defaultRegistry.map (·.1)) (v : ℝ)
    (hm : Means defaultRegistry.exprs src name v) (k : ℕ) (hk : countOf base name = some k) (hu : k * u ≤ 1 / 2) (hu1 : u < 1) :
    ∃ y, readTextF rnd defaultRegistry src fuel name = some (.ok (.fin y)) ∧ |y - v| ≤ 2 * k * u * |v| := by
  have hreg : ∀ p ∈ defaultRegistry, (
      (fullname p.1 ∉ atomicProps →
        parse (defaultRegistry.call p.1).expr = defaultRegistry.exprs p.1) ∧
      (fullname p.1 ∈ atomicProps →
        parse (defaultRegistry.call p.1).expr = some (.var (fullname p.1)) ∧ fullname (fullname p.1) = fullname p.1)) := by decide +kernel
  obtain ⟨p, hp, rfl⟩ := List.mem_map.1 hname
  obtain ⟨h2, h3⟩ := hreg p hp
  unfold countOf at hk
  cases he : parse (defaultRegistry.call p.1).expr with
  | none => rw [he] at hk; cases hk
  | some e =>
    rw [he] at hk
    simp only [Option.map_eq_some_iff] at hk
    obtain ⟨⟨s, k'⟩, hr, rfl⟩ := hk
    have hme : MeansExpr defaultRegistry.exprs src e v := by
      by_cases ha : fullname p.1 ∈ atomicProps
      · obtain ⟨h3, h4⟩ := h3 ha
        rw [h3] at he
        cases he
        refine ⟨fun _ => v, ?_, rfl⟩
        intro x hx
        simp only [Expr.vars, List.mem_singleton] at hx
        subst hx
        cases hm with
        | atomic _ _ _ hv => exact .atomic _ _ (by rw [h4]; exact ha) (by rw [h4]; exact hv)
        | scalar _ _ _ h => exact absurd ha h
        | constant _ _ h => exact absurd ha h
        | numpy _ _ h => exact absurd ha h
      · have hex := h2 ha
        rw [he] at hex
        cases hm with
        | atomic _ _ h => exact absurd h ha
        | scalar _ e' env _ he' henv =>
          rw [← hex] at he'
          cases he'
          exact ⟨env, henv, rfl⟩
        | constant _ _ _ he' => rw [← hex] at he'; cases he'
        | numpy _ _ _ he' => rw [← hex] at he'; cases he'
    obtain ⟨y, h1, h2⟩ := scalar_rounded A hu1 defaultRegistry src base hb fuel p.1 e he v hme s k'
      (roundings_mono (fun x r h => roundingsOf_le _ _ hf x r h) e _ hr)
    exact ⟨y, h1, within_error A.nonneg hu h2⟩

/-- The counts: at most 40. -/
theorem momentum_counts : ∀ name ∈ momentumScalars, ∃ k ≤ 40, countOf momentumSigns name = some k := by
  have h : ∀ name ∈ momentumScalars, ((countOf momentumSigns name).any fun k => decide (k ≤ 40)) = true := by decide +kernel
  intro name hn
  have := h name hn
  rw [Option.any_eq_true] at this
  obtain ⟨k, h1, h2⟩ := this
  exact ⟨k, of_decide_eq_true h2, h1⟩

theorem record_counts : ∀ name ∈ recordScalars, ∃ k ≤ 40, countOf physicalSigns name = some k := by
  have h : ∀ name ∈ recordScalars, ((countOf physicalSigns name).any fun k => decide (k ≤ 40)) = true := by decide +kernel
  intro name hn
  have := h name hn
  rw [Option.any_eq_true] at this
  obtain ⟨k, h1, h2⟩ := this
  exact ⟨k, of_decide_eq_true h2, h1⟩

theorem error_mono {k : ℕ} (hk : k ≤ 40) {u v : ℝ} (hu0 : 0 ≤ u) : 2 * k * u * |v| ≤ 80 * u * |v| := by
  refine mul_le_mul_of_nonneg_right ?_ (abs_nonneg v)
  refine mul_le_mul_of_nonneg_right ?_ hu0
  have : (k : ℝ) ≤ 40 := by exact_mod_cast hk
  linarith

/-- C124: momenta, velocities, Lorentz factors, kinetic energies and angles of every particle with positive mass are computed with a
relative error of at most 80 roundings; also those of slow particles. -/
theorem momentum_scalars_rounded (A : Accurate rnd u) (hu : 80 * u ≤ 1) (src : Sources) (c m px py pz : ℝ)
    (hs : HasMomentum src c m px py pz) (hm : 0 < m) (hc : 0 < c) (fuel : ℕ) (hf : 6 ≤ fuel) (name : String) (hname : name ∈ momentumScalars) :
    ∃ y, readTextF rnd defaultRegistry src fuel name = some (.ok (.fin y)) ∧
      |y - meaning c m px py pz name| ≤ 80 * u * |meaning c m px py pz name| := by
  have hkeys : ∀ name ∈ momentumScalars, name ∈ defaultRegistry.map (·.1) := by decide +kernel
  obtain ⟨k, hk, hc'⟩ := momentum_counts name hname
  have hu0 := A.nonneg
  have hk' : (k : ℝ) ≤ 40 := by exact_mod_cast hk
  obtain ⟨y, h1, h2⟩ := default_rounded A src momentumSigns (momentumSigns_of hs hm hc) fuel hf name (hkeys name hname) _
    (means_all src c m px py pz hs name (by simp [hname])) k hc' (by nlinarith) (by linarith)
  exact ⟨y, h1, h2.trans (error_mono hk hu0)⟩

/-- C124: the same for the scalars in other units. -/
theorem record_scalars_rounded (A : Accurate rnd u) (hu : 80 * u ≤ 1) (src : Sources) (r : Record)
    (hs : HasRecord src r) (hm : 0 < r.mass) (hc : 0 < r.c) (he : 0 < r.e) (hu' : 0 < r.u) (fuel : ℕ) (hf : 6 ≤ fuel) (name : String)
    (hname : name ∈ recordScalars) :
    ∃ y, readTextF rnd defaultRegistry src fuel name = some (.ok (.fin y)) ∧
      |y - recordMeaning r name| ≤ 80 * u * |recordMeaning r name| := by
  have hkeys : ∀ name ∈ recordScalars, name ∈ defaultRegistry.map (·.1) := by decide +kernel
  obtain ⟨k, hk, hc'⟩ := record_counts name hname
  have hu0 := A.nonneg
  have hk' : (k : ℝ) ≤ 40 := by exact_mod_cast hk
  obtain ⟨y, h1, h2⟩ := default_rounded A src physicalSigns (physicalSigns_of hs hm hc he hu') fuel hf name (hkeys name hname) _
    (means_record src r hs name hname) k hc' (by nlinarith) (by linarith)
  exact ⟨y, h1, h2.trans (error_mono hk hu0)⟩

/-- C124: the kinetic energy of a particle which moves is not 0, and negative for no particle. -/
theorem ekin_rounded_pos (A : Accurate rnd u) (hu : 80 * u < 1) (src : Sources) (c m px py pz : ℝ)
    (hs : HasMomentum src c m px py pz) (hm : 0 < m) (hc : 0 < c) (fuel : ℕ) (hf : 6 ≤ fuel) :
    ∃ y, readTextF rnd defaultRegistry src fuel "Ekin" = some (.ok (.fin y)) ∧ 0 ≤ y ∧
      (y = 0 ↔ px = 0 ∧ py = 0 ∧ pz = 0) := by
  obtain ⟨y, h1, h2⟩ := momentum_scalars_rounded A hu.le src c m px py pz hs hm hc fuel hf "Ekin" (by simp [momentumScalars])
  have hg := one_le_lorentz c m px py pz
  have hg2 := lorentz_sq c m px py pz
  have e : meaning c m px py pz "Ekin" = (lorentz c m px py pz - 1) * m * c ^ 2 := rfl
  have hv : 0 ≤ meaning c m px py pz "Ekin" := by
    rw [e]
    exact mul_nonneg (mul_nonneg (by linarith) hm.le) (by positivity)
  have hu0 := A.nonneg
  rw [abs_of_nonneg hv, abs_le] at h2
  have hz : meaning c m px py pz "Ekin" = 0 ↔ px = 0 ∧ py = 0 ∧ pz = 0 := by
    rw [e]
    have hmc : 0 < m * c ^ 2 := by positivity
    rw [mul_assoc, mul_eq_zero]
    constructor
    · rintro (h | h)
      · have h1 : lorentz c m px py pz = 1 := by linarith
        rw [h1] at hg2
        have h0 : (px ^ 2 + py ^ 2 + pz ^ 2) / (m * c) ^ 2 = 0 := by linarith
        rw [div_eq_zero_iff] at h0
        rcases h0 with h0 | h0
        · exact ⟨by nlinarith [sq_nonneg px, sq_nonneg py, sq_nonneg pz], by nlinarith [sq_nonneg px, sq_nonneg py, sq_nonneg pz],
            by nlinarith [sq_nonneg px, sq_nonneg py, sq_nonneg pz]⟩
        · exact absurd h0 (by positivity)
      · exact absurd h hmc.ne'
    · rintro ⟨rfl, rfl, rfl⟩
      left
      simp [lorentz]
  refine ⟨y, h1, by nlinarith [h2.1], ?_⟩
  rw [← hz]
  constructor
  · intro h
    rw [h] at h2
    nlinarith [h2.1]
  · intro h
    rw [h] at h2
    have := h2.1
    have := h2.2
    linarith

/-- A rounding which gives 1 for numbers near 1. -/
def nearOne (x : ℝ) : Dbl ℝ := if |x - 1| ≤ 1 / 2 ^ 53 then .fin 1 else .fin x

theorem nearOne_accurate : Accurate nearOne (1 / 2 ^ 52) := by
  refine ⟨by positivity, fun x => ?_⟩
  unfold nearOne
  split_ifs with h
  · refine ⟨1, rfl, ?_⟩
    rw [abs_sub_comm]
    refine h.trans ?_
    have h1 : (1 : ℝ) / 2 ≤ |x| := by
      rw [abs_le] at h
      have : (1 : ℝ) / 2 ≤ x := by
        have := h.1
        norm_num at this ⊢
        linarith
      exact this.trans (le_abs_self x)
    calc (1 : ℝ) / 2 ^ 53 = 1 / 2 ^ 52 * (1 / 2) := by norm_num
      _ ≤ 1 / 2 ^ 52 * |x| := mul_le_mul_of_nonneg_left h1 (by positivity)
  · exact ⟨x, rfl, by simp⟩

theorem nearOne_one {x : ℝ} (h : |x - 1| ≤ 1 / 2 ^ 53) : nearOne x = .fin 1 := if_pos h

theorem nearOne_far {x : ℝ} (h : 1 / 2 ^ 53 < |x - 1|) : nearOne x = .fin x := if_neg (not_le.2 h)

/-- A slow particle: `p = 2⁻⁴⁰ m c`. -/
def slow : Record := ⟨0, 0, 0, 1 / 2 ^ 40, 0, 0, 1, 1, 1, 1, 1, 1, 1, 1⟩

theorem slow_np2 (fuel : ℕ) : nameF nearOne defaultRegistry.exprs (exampleSources slow) (fuel + 2) "_np2" = .ok (.fin (1 / 2 ^ 80)) := by
  have he : defaultRegistry.exprs "_np2" = some (.div (.add (.add (.pow (.var "px") 2) (.pow (.var "py") 2)) (.pow (.var "pz") 2))
    (.pow (.mul (.var "mass") (.var "c")) 2)) := by decide +kernel
  have atom : ∀ s v, fullname s = s → s ∈ atomicProps → (exampleSources slow).atomic s = some v →
      nameF nearOne defaultRegistry.exprs (exampleSources slow) (fuel + 1) s = .ok (.fin v) := by
    intro s v h1 h2 h3
    rw [nameF, h1, if_pos h2, h3]
  have h := exampleSources_has slow
  have v1 := atom "px" (1 / 2 ^ 40) (by decide) (by decide) h.px
  have v2 := atom "py" 0 (by decide) (by decide) h.py
  have v3 := atom "pz" 0 (by decide) (by decide) h.pz
  have v4 := atom "mass" 1 (by decide) (by decide) h.mass
  have v5 : nameF nearOne defaultRegistry.exprs (exampleSources slow) (fuel + 1) "c" = .ok (.fin 1) := by
    rw [nameF, if_neg (by decide), show defaultRegistry.exprs "c" = none by decide +kernel]
    simp only [h.c]
    rfl
  have r0 : nearOne 0 = .fin 0 := nearOne_far (by norm_num)
  have r1 : nearOne 1 = .fin 1 := nearOne_one (by norm_num)
  have r2 : nearOne (1 / 2 ^ 80) = .fin (1 / 2 ^ 80) := nearOne_far (by norm_num [abs_of_neg])
  have m2 : (1 : ℝ) / 2 ^ 40 * (1 / 2 ^ 40) = 1 / 2 ^ 80 := by norm_num
  rw [show fuel + 2 = (fuel + 1) + 1 from rfl, nameF, if_neg (by decide), he]
  simp only [Expr.evalF, v1, v2, v3, v4, v5, bind, Except.bind, pure, Except.pure, powF, Dbl.mul, Dbl.add, divF, mul_zero, mul_one, add_zero,
    m2, r0, r1, r2, if_neg one_ne_zero, div_one]

/-- C124: there is no such bound for `gamma - 1`: with a rounding of accuracy `2⁻⁵²` the result is 0 for a slow particle, although the exact
number is positive; the scalars `gamma_m1` and `Ekin` are positive. -/
theorem gamma_minus_one_loses_digits :
    readTextF nearOne defaultRegistry (exampleSources slow) 6 "gamma - 1" = some (.ok (.fin 0)) ∧
      readText Expr.vars defaultRegistry (exampleSources slow) 6 "gamma - 1" = some (.ok (lorentz 1 1 (1 / 2 ^ 40) 0 0 - 1)) ∧
      0 < lorentz 1 1 (1 / 2 ^ 40) 0 0 - 1 := by
  have hp : parse (defaultRegistry.call "gamma - 1").expr = some (.sub (.var "gamma") (.num 1)) := by decide +kernel
  have he : defaultRegistry.exprs "gamma" = some (.add (.div (.var "_np2") (.add (.sqrt (.add (.num 1) (.var "_np2"))) (.num 1))) (.num 1)) := by
    decide +kernel
  have hs : HasMomentum (exampleSources slow) 1 1 (1 / 2 ^ 40) 0 0 := by
    have h := exampleSources_has slow
    exact ⟨h.px, h.py, h.pz, h.mass, h.c⟩
  refine ⟨?_, ?_, ?_⟩
  · have r0 : nearOne 0 = .fin 0 := nearOne_far (by norm_num)
    have r1 : nearOne 1 = .fin 1 := nearOne_one (by norm_num)
    have r2 : nearOne 2 = .fin 2 := nearOne_far (by norm_num)
    have r3 : nearOne (1 + 1 / 2 ^ 80) = .fin 1 := nearOne_one (by norm_num [abs_of_pos])
    have r4 : nearOne (1 / 2 ^ 80 / 2) = .fin (1 / 2 ^ 81) := by
      rw [show (1 : ℝ) / 2 ^ 80 / 2 = 1 / 2 ^ 81 by norm_num]
      exact nearOne_far (by norm_num [abs_of_neg])
    have r5 : nearOne (1 / 2 ^ 81 + 1) = .fin 1 := nearOne_one (by norm_num [abs_of_pos])
    have hg : nameF nearOne defaultRegistry.exprs (exampleSources slow) 6 "gamma" = .ok (.fin 1) := by
      rw [nameF, if_neg (by decide), he]
      simp only [Expr.evalF, slow_np2 3, bind, Except.bind, pure, Except.pure, Dbl.add, divF, sqrtF, Rat.cast_one, r1, r3,
        if_neg (not_lt.2 (zero_le_one' ℝ)), Real.sqrt_one, one_add_one_eq_two, r2, if_neg (two_ne_zero' ℝ), r4, r5]
    unfold readTextF
    rw [hp, Option.map_some]
    simp only [Expr.evalF, hg, bind, Except.bind, pure, Except.pure, Rat.cast_one, r1]
    simp [Dbl.sub, Dbl.add, Dbl.neg, r0]
  · unfold readText
    rw [hp]
    simp only [Option.map_some, Option.some.injEq]
    have hme : MeansExpr defaultRegistry.exprs (exampleSources slow) (.sub (.var "gamma") (.num 1)) (lorentz 1 1 (1 / 2 ^ 40) 0 0 - 1) := by
      refine ⟨meaning 1 1 (1 / 2 ^ 40) 0 0, ?_, ?_⟩
      · intro x hx
        have : x = "gamma" := by simpa [Expr.vars] using hx
        subst this
        exact means_all _ 1 1 _ 0 0 hs "gamma" (by simp [momentumScalars])
      · simp [Expr.eval, meaning]
    rcases default_terminates Expr.vars (fun _ _ => Iff.rfl) (exampleSources slow) 6 (le_refl _) (.sub (.var "gamma") (.num 1)) with ⟨v, hv, h⟩ | ⟨h, _⟩
    · rw [h, meansExpr_unique hv hme]
    · exact absurd ⟨_, hme⟩ h
  · have h1 := one_le_lorentz 1 1 (1 / 2 ^ 40) 0 0
    have h2 := lorentz_sq 1 1 (1 / 2 ^ 40) 0 0
    have h3 : lorentz 1 1 (1 / 2 ^ 40) 0 0 ≠ 1 := by
      intro h
      rw [h] at h2
      norm_num at h2
    have := lt_of_le_of_ne h1 h3.symm
    linarith

/-- The hypotheses hold for this particle; the energy is not rounded to 0. -/
example : ∃ y, readTextF nearOne defaultRegistry (exampleSources slow) 6 "Ekin" = some (.ok (.fin y)) ∧ 0 < y := by
  have h := exampleSources_has slow
  obtain ⟨y, h1, h2, h3⟩ := ekin_rounded_pos nearOne_accurate (by norm_num) (exampleSources slow) 1 1 (1 / 2 ^ 40) 0 0
    ⟨h.px, h.py, h.pz, h.mass, h.c⟩ one_pos one_pos 6 (le_refl _)
  refine ⟨y, h1, lt_of_le_of_ne h2 fun h => ?_⟩
  have := (h3.1 h.symm).1
  norm_num at this

example : ∃ y, readTextF nearOne defaultRegistry (exampleSources slow) 6 "Ekin_MeV" = some (.ok (.fin y)) ∧
    |y - recordMeaning slow "Ekin_MeV"| ≤ 80 * (1 / 2 ^ 52) * |recordMeaning slow "Ekin_MeV"| :=
  record_scalars_rounded nearOne_accurate (by norm_num) _ slow (exampleSources_has slow) one_pos one_pos one_pos one_pos 6 (le_refl _) "Ekin_MeV"
    (by simp [recordScalars])

/-- The difference of two momenta. -/
example : ∃ y, readTextF nearOne defaultRegistry (exampleSources slow) 6 "px - py" = some (.ok (.fin y)) ∧
    |y - (1 / 2 ^ 40 - 0 : ℝ)| ≤ 2 * (max 0 0 + 1 : ℕ) * (1 / 2 ^ 52 : ℝ) * (|(1 / 2 ^ 40 : ℝ)| + |(0 : ℝ)|) := by
  have h := exampleSources_has slow
  have hs : HasMomentum (exampleSources slow) 1 1 (1 / 2 ^ 40) 0 0 := ⟨h.px, h.py, h.pz, h.mass, h.c⟩
  have e1 : fullname "px" = "px" := by decide
  have e2 : fullname "py" = "py" := by decide
  have e3 : "px" ∈ atomicProps := by decide
  have e4 : "py" ∈ atomicProps := by decide
  refine (scalar_difference_rounded nearOne_accurate defaultRegistry (exampleSources slow) momentumSigns
    (momentumSigns_of hs one_pos one_pos) 6 "px - py" (.var "px") (.var "py") _ _ ⟨fun _ => 1 / 2 ^ 40, ?_, rfl⟩ ⟨fun _ => 0, ?_, rfl⟩ .any .any 0
    (by decide +kernel) 0 (by decide +kernel) (by norm_num) (by norm_num)).1 (by decide +kernel)
  · intro x hx
    simp only [Expr.vars, List.mem_singleton] at hx
    subst hx
    exact .atomic _ _ (by rw [e1]; exact e3) (by rw [e1]; exact h.px)
  · intro x hx
    simp only [Expr.vars, List.mem_singleton] at hx
    subst hx
    exact .atomic _ _ (by rw [e2]; exact e4) (by rw [e2]; exact h.py)

/-- Numbers of roundings. -/
example : countOf physicalSigns "Ekin_MeV" = some 24 ∧ countOf momentumSigns "v" = some 40 ∧ countOf momentumSigns "angle_xaxis" = some 4 ∧
    countOf physicalSigns "gamma - 1" = none := by decide +kernel

end

end Postpic.Props
