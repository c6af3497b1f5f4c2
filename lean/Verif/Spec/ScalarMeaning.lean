import Verif.Model.ScalarEval

/-!
# The meaning of a particle scalar

Specification of the documented resolution order ("1. atomic particle property, 2. defined particle
property, 3. equally named attribute in scipy.constants"), without memo table and fuel: a relation
between names and values. (Attributes of numpy come last.)
-/

set_option autoImplicit false

namespace Postpic.Spec

open Postpic.Scalars

/-- `Means reg src name v`: the variable `name` has the value `v`. -/
inductive Means (reg : String → Option Expr) (src : Sources) : String → ℝ → Prop
  | atomic (name : String) (v : ℝ) (h : fullname name ∈ atomicProps)
      (hv : src.atomic (fullname name) = some v) : Means reg src name v
  | scalar (name : String) (e : Expr) (env : String → ℝ) (h : fullname name ∉ atomicProps)
      (he : reg name = some e) (henv : ∀ x ∈ e.vars, Means reg src x (env x)) :
      Means reg src name (e.eval env)
  | constant (name : String) (v : ℝ) (h : fullname name ∉ atomicProps) (he : reg name = none)
      (hv : src.constants name = some v) : Means reg src name v
  | numpy (name : String) (v : ℝ) (h : fullname name ∉ atomicProps) (he : reg name = none)
      (hc : src.constants name = none) (hv : src.np name = some v) : Means reg src name v

/-- `MeansExpr reg src e v`: the expression `e` has the value `v`. -/
def MeansExpr (reg : String → Option Expr) (src : Sources) (e : Expr) (v : ℝ) : Prop :=
  ∃ env, (∀ x ∈ e.vars, Means reg src x (env x)) ∧ v = e.eval env

/-- Scalars refer only to scalars of lower rank: there is no cycle. -/
def Acyclic (reg : String → Option Expr) (rank : String → ℕ) : Prop :=
  ∀ name e, fullname name ∉ atomicProps → reg name = some e →
    ∀ x ∈ e.vars, fullname x ∉ atomicProps → (reg x).isSome → rank x < rank name

end Postpic.Spec
