import Verif.Spec.ScalarMeaning

/-!
# Lemmas about the evaluation of particle scalars
-/

set_option autoImplicit false

namespace Postpic.Scalars

open Postpic Postpic.Spec

variable {reg : String → Option Expr} {src : Sources}

theorem eval_congr (e : Expr) (env env' : String → ℝ) (h : ∀ x ∈ e.vars, env x = env' x) :
    e.eval env = e.eval env' := by
  induction e with
  | num q => rfl
  | var s => exact h s (by simp [Expr.vars])
  | add a b iha ihb | sub a b iha ihb | mul a b iha ihb | div a b iha ihb | arctan2 a b iha ihb =>
    simp only [Expr.eval]
    rw [iha fun x hx => h x (by simp [Expr.vars, hx]), ihb fun x hx => h x (by simp [Expr.vars, hx])]
  | neg a iha | pow a n iha | sqrt a iha =>
    simp only [Expr.eval]
    rw [iha fun x hx => h x (by simpa [Expr.vars] using hx)]

/-- A name has at most one value. -/
theorem means_unique {name : String} {v w : ℝ} (hv : Means reg src name v)
    (hw : Means reg src name w) : v = w := by
  induction hv generalizing w with
  | atomic name v h hv =>
    cases hw with
    | atomic _ _ _ hw => rw [hv] at hw; exact Option.some.inj hw
    | scalar _ _ _ h' => exact absurd h h'
    | constant _ _ h' => exact absurd h h'
    | numpy _ _ h' => exact absurd h h'
  | scalar name e env h he henv ih =>
    cases hw with
    | atomic _ _ h' => exact absurd h' h
    | scalar _ e' env' _ he' henv' =>
      rw [he] at he'
      cases he'
      exact eval_congr e env env' fun x hx => ih x hx (henv' x hx)
    | constant _ _ _ he' => rw [he] at he'; cases he'
    | numpy _ _ _ he' => rw [he] at he'; cases he'
  | constant name v h he hv =>
    cases hw with
    | atomic _ _ h' => exact absurd h' h
    | scalar _ _ _ _ he' => rw [he] at he'; cases he'
    | constant _ _ _ _ hw => rw [hv] at hw; exact Option.some.inj hw
    | numpy _ _ _ _ hc => rw [hv] at hc; cases hc
  | numpy name v h he hc hv =>
    cases hw with
    | atomic _ _ h' => exact absurd h' h
    | scalar _ _ _ _ he' => rw [he] at he'; cases he'
    | constant _ _ _ _ hw => rw [hc] at hw; cases hw
    | numpy _ _ _ _ _ hw => rw [hv] at hw; exact Option.some.inj hw

theorem meansExpr_unique {e : Expr} {v w : ℝ} (hv : MeansExpr reg src e v)
    (hw : MeansExpr reg src e w) : v = w := by
  obtain ⟨env, h1, rfl⟩ := hv
  obtain ⟨env', h2, rfl⟩ := hw
  exact eval_congr e _ _ fun x hx => means_unique (h1 x hx) (h2 x hx)

/-- The memo table only contains right values. -/
def Sound (reg : String → Option Expr) (src : Sources) (vars : Vars) : Prop :=
  ∀ s v, vars s = some v → Means reg src s v

theorem fullname_fullname (name : String) : fullname (fullname name) = fullname name := by
  unfold fullname
  split_ifs <;> simp_all

theorem fullname_atomic (name : String) (h : fullname name ≠ name) :
    fullname name ∈ atomicProps := by
  unfold fullname at *
  split_ifs at * <;> first | exact absurd rfl h | decide

theorem means_fullname {name : String} {v : ℝ} (h : Means reg src (fullname name) v) :
    Means reg src name v := by
  by_cases hn : fullname name = name
  · rw [hn] at h; exact h
  · have ha := fullname_atomic name hn
    cases h with
    | atomic _ _ h hv =>
      rw [fullname_fullname] at h hv
      exact Means.atomic name v h hv
    | scalar _ _ _ h' => rw [fullname_fullname] at h'; exact absurd ha h'
    | constant _ _ h' => rw [fullname_fullname] at h'; exact absurd ha h'
    | numpy _ _ h' => rw [fullname_fullname] at h'; exact absurd ha h'

theorem sound_set {vars : Vars} (h : Sound reg src vars) {name : String} {v : ℝ}
    (hv : Means reg src name v) : Sound reg src (vars.set name v) := by
  intro s w hs
  unfold Vars.set at hs
  split at hs
  · rename_i heq; subst heq; cases hs; exact hv
  · exact h s w hs

/-- The table only grows. -/
def Ext (vars vars' : Vars) : Prop := ∀ s, (vars s).isSome → (vars' s).isSome

theorem ext_set (vars : Vars) (name : String) (v : ℝ) : Ext vars (vars.set name v) := by
  intro s hs
  unfold Vars.set
  split <;> simp_all

/-- What a (recursive) evaluation has to do. -/
def Good (reg : String → Option Expr) (src : Sources) (e : Expr) (vars : Vars)
    (r : Res ℝ × Vars) : Prop :=
  Sound reg src r.2 ∧ Ext vars r.2 ∧
  ((∃ v, MeansExpr reg src e v ∧ r.1 = .ok v) ∨
    ((¬ ∃ v, MeansExpr reg src e v) ∧ r.1 = .error .keyError))

theorem loadAll_spec (rec : Expr → Vars → Res ℝ × Vars) (names : List String)
    (hrec : ∀ x ∈ names, ∀ e, fullname x ∉ atomicProps → reg x = some e →
      ∀ vars, Sound reg src vars → Good reg src e vars (rec e vars))
    (vars : Vars) (hs : Sound reg src vars) :
    Sound reg src (loadAll reg src rec names vars).2 ∧
    Ext vars (loadAll reg src rec names vars).2 ∧
    (((loadAll reg src rec names vars).1 = .ok () ∧
        ∀ x ∈ names, ((loadAll reg src rec names vars).2 x).isSome) ∨
      ((loadAll reg src rec names vars).1 = .error .keyError ∧
        ∃ x ∈ names, ¬ ∃ v, Means reg src x v)) := by
  induction names generalizing vars with
  | nil => exact ⟨hs, fun _ h => h, Or.inl ⟨rfl, by simp⟩⟩
  | cons name names ih =>
    have hrec' : ∀ x ∈ names, ∀ e, fullname x ∉ atomicProps → reg x = some e →
      ∀ vars, Sound reg src vars → Good reg src e vars (rec e vars) :=
      fun x hx => hrec x (by simp [hx])
    -- going on with a table in which `name` is defined
    have next : ∀ vars' : Vars, Sound reg src vars' → Ext vars vars' → (vars' name).isSome →
        Sound reg src (loadAll reg src rec names vars').2 ∧
        Ext vars (loadAll reg src rec names vars').2 ∧
        (((loadAll reg src rec names vars').1 = .ok () ∧
            ∀ x ∈ name :: names, ((loadAll reg src rec names vars').2 x).isSome) ∨
          ((loadAll reg src rec names vars').1 = .error .keyError ∧
            ∃ x ∈ name :: names, ¬ ∃ v, Means reg src x v)) := by
      intro vars' hs' hext hname
      obtain ⟨h1, h2, h3⟩ := ih hrec' vars' hs'
      refine ⟨h1, fun s h => h2 s (hext s h), ?_⟩
      rcases h3 with ⟨h3, h4⟩ | ⟨h3, x, hx, h4⟩
      · refine Or.inl ⟨h3, ?_⟩
        intro x hx
        rcases List.mem_cons.1 hx with rfl | hx
        · exact h2 _ hname
        · exact h4 x hx
      · exact Or.inr ⟨h3, x, by simp [hx], h4⟩
    have nextSet : ∀ (vars' : Vars) (v : ℝ), Sound reg src vars' → Ext vars vars' →
        Means reg src name v → _ := fun vars' v hs' hext hv =>
      next (vars'.set name v) (sound_set hs' hv)
        (fun s h => ext_set vars' name v s (hext s h)) (by simp [Vars.set])
    have refl : Ext vars vars := fun _ h => h
    unfold loadAll
    cases hname : vars name with
    | some v => exact next vars hs refl (by simp [hname])
    | none =>
      cases hfull : vars (fullname name) with
      | some v => exact nextSet vars v hs refl (means_fullname (hs _ _ hfull))
      | none =>
        simp only
        by_cases hat : fullname name ∈ atomicProps
        · rw [if_pos hat]
          cases hv : src.atomic (fullname name) with
          | some v => exact nextSet vars v hs refl (Means.atomic name v hat hv)
          | none =>
            refine ⟨hs, refl, Or.inr ⟨rfl, name, by simp, ?_⟩⟩
            rintro ⟨v, hm⟩
            cases hm with
            | atomic _ _ _ h => rw [hv] at h; cases h
            | scalar _ _ _ h => exact h hat
            | constant _ _ h => exact h hat
            | numpy _ _ h => exact h hat
        · rw [if_neg hat]
          cases he : reg name with
          | some e =>
            simp only
            have hg := hrec name (by simp) e hat he vars hs
            generalize rec e vars = r at hg
            obtain ⟨r1, vars'⟩ := r
            obtain ⟨g1, g2, ⟨v, ⟨env, henv, rfl⟩, g3⟩ | ⟨g3, g4⟩⟩ := hg
            · simp only at g1 g2 g3
              subst g3
              exact nextSet vars' _ g1 g2 (Means.scalar name e env hat he henv)
            · simp only at g1 g2 g4
              subst g4
              refine ⟨g1, g2, Or.inr ⟨rfl, name, by simp, ?_⟩⟩
              rintro ⟨v, hm⟩
              cases hm with
              | atomic _ _ h => exact hat h
              | scalar _ e' env _ he' henv =>
                rw [he] at he'
                cases he'
                exact g3 ⟨_, env, henv, rfl⟩
              | constant _ _ _ he' => rw [he] at he'; cases he'
              | numpy _ _ _ he' => rw [he] at he'; cases he'
          | none =>
            simp only
            cases hc : src.constants name with
            | some v => exact nextSet vars v hs refl (Means.constant name v hat he hc)
            | none =>
              simp only
              cases hn : src.np name with
              | some v => exact nextSet vars v hs refl (Means.numpy name v hat he hc hn)
              | none =>
                refine ⟨hs, refl, Or.inr ⟨rfl, name, by simp, ?_⟩⟩
                rintro ⟨v, hm⟩
                cases hm with
                | atomic _ _ h => exact hat h
                | scalar _ _ _ _ he' => rw [he] at he'; cases he'
                | constant _ _ _ _ h => rw [hc] at h; cases h
                | numpy _ _ _ _ _ h => rw [hn] at h; cases h

/-- Evaluation with enough fuel is right. -/
theorem evalSp_good (order : Expr → List String) (horder : ∀ e x, x ∈ order e ↔ x ∈ e.vars)
    (rank : String → ℕ) (hac : Acyclic reg rank) (n : ℕ) (e : Expr)
    (hr : ∀ x ∈ e.vars, fullname x ∉ atomicProps → (reg x).isSome → rank x < n)
    (vars : Vars) (hs : Sound reg src vars) :
    Good reg src e vars (evalSp order reg src (n + 1) e vars) := by
  induction n generalizing e vars with
  | zero =>
    have h := loadAll_spec (reg := reg) (src := src) (evalSp order reg src 0) (order e)
      (fun x hx e' hx' he' => absurd (hr x ((horder e x).1 hx) hx' (by simp [he'])) (by simp)) vars hs
    unfold evalSp
    generalize loadAll reg src (evalSp order reg src 0) (order e) vars = r at h
    obtain ⟨r1, vars'⟩ := r
    obtain ⟨h1, h2, ⟨h3, h4⟩ | ⟨h3, x, hx, h4⟩⟩ := h
    · simp only at h1 h2 h3 h4
      subst h3
      refine ⟨h1, h2, Or.inl ⟨_, ⟨_, ?_, rfl⟩, rfl⟩⟩
      intro x hx
      obtain ⟨v, hv⟩ := Option.isSome_iff_exists.1 (h4 x ((horder e x).2 hx))
      rw [hv]
      exact h1 x v hv
    · simp only at h1 h2 h3
      subst h3
      refine ⟨h1, h2, Or.inr ⟨?_, rfl⟩⟩
      rintro ⟨v, env, henv, _⟩
      exact h4 ⟨_, henv x ((horder e x).1 hx)⟩
  | succ n ih =>
    have h := loadAll_spec (reg := reg) (src := src) (evalSp order reg src (n + 1)) (order e)
      (fun x hx e' hx' he' vars' hs' => ih e' (fun y hy hy' hys => by
        have h1 := hac x e' hx' he' y hy hy' hys
        have h2 := hr x ((horder e x).1 hx) hx' (by simp [he'])
        omega) vars' hs') vars hs
    unfold evalSp
    generalize loadAll reg src (evalSp order reg src (n + 1)) (order e) vars = r at h
    obtain ⟨r1, vars'⟩ := r
    obtain ⟨h1, h2, ⟨h3, h4⟩ | ⟨h3, x, hx, h4⟩⟩ := h
    · simp only at h1 h2 h3 h4
      subst h3
      refine ⟨h1, h2, Or.inl ⟨_, ⟨_, ?_, rfl⟩, rfl⟩⟩
      intro x hx
      obtain ⟨v, hv⟩ := Option.isSome_iff_exists.1 (h4 x ((horder e x).2 hx))
      rw [hv]
      exact h1 x v hv
    · simp only at h1 h2 h3
      subst h3
      refine ⟨h1, h2, Or.inr ⟨?_, rfl⟩⟩
      rintro ⟨v, env, henv, _⟩
      exact h4 ⟨_, henv x ((horder e x).1 hx)⟩

/-! ### The registry -/

theorem get_mem {r : Registry} {k : String} {sp : SP} (h : r.get k = some sp) : (k, sp) ∈ r := by
  induction r with
  | nil => simp [Registry.get] at h
  | cons p r ih =>
    obtain ⟨k', sp'⟩ := p
    unfold Registry.get at h
    split at h
    · rename_i hk; subst hk; cases h; simp
    · exact List.mem_cons_of_mem _ (ih h)

theorem get_append (r : Registry) (k s : String) (sp : SP) (h : r.get s = none) :
    Registry.get (r ++ [(s, sp)]) k = if k = s then some sp else r.get k := by
  induction r with
  | nil => simp [Registry.get, eq_comm]
  | cons p r ih =>
    obtain ⟨k', sp'⟩ := p
    simp only [Registry.get] at h
    split at h
    · cases h
    · rename_i hne
      simp only [List.cons_append, Registry.get]
      rw [ih h]
      by_cases hk : k' = k
      · subst hk; simp [hne]
      · simp [hk]

theorem get_filter (r : Registry) (k s : String) :
    Registry.get (r.filter fun p => decide (p.1 ≠ s)) k = if k = s then none else r.get k := by
  induction r with
  | nil => simp [Registry.get]
  | cons p r ih =>
    obtain ⟨k', sp'⟩ := p
    by_cases hp : k' = s
    · rw [List.filter_cons_of_neg (by simp [hp]), ih]
      simp only [Registry.get]
      by_cases hk : k = s
      · simp [hk]
      · have : ¬ k' = k := fun h => hk (h ▸ hp)
        simp [hk, this]
    · rw [List.filter_cons_of_pos (by simp [hp])]
      simp only [Registry.get, ih]
      by_cases hk : k' = k
      · have : ¬ k = s := fun h => hp (hk ▸ h)
        simp [hk, this]
      · simp [hk]

end Postpic.Scalars
