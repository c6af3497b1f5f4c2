import Verif.Lemmas.Scalars
import Verif.Lemmas.RoundingError
import Verif.Lemmas.ArgError
import Verif.Lemmas.Within
import Verif.Model.ScalarFloat
import Verif.Spec.ScalarError

/-!
# Lemmas about particle scalars with rounding
-/

set_option autoImplicit false
set_option linter.unusedSectionVars false

namespace Postpic.Scalars

open Postpic Postpic.Spec Postpic.Histogram

variable {rnd : ℝ → Dbl ℝ} {u : ℝ}

theorem within_sqrt {k : ℕ} {x y : ℝ} (hx : 0 ≤ x) (hu0 : 0 ≤ u) (hu1 : u < 1) (h : Within u k x y) :
    Within u ((k + 1) / 2) (Real.sqrt x) (Real.sqrt y) := by
  obtain ⟨t, h1, h2, h3⟩ := within_mono hu0 hu1 (show k ≤ 2 * ((k + 1) / 2) by omega) h
  generalize (k + 1) / 2 = m at *
  have hw : 0 < (1 - u) ^ m := pow_pos (by linarith) m
  rw [mul_comm 2 m, pow_mul] at h1 h2
  have ht : 0 ≤ t := le_trans (sq_nonneg _) h1
  refine ⟨Real.sqrt t, Real.le_sqrt_of_sq_le h1, ?_, by rw [h3, Real.sqrt_mul hx]⟩
  have : Real.sqrt t * (1 - u) ^ m = Real.sqrt (t * ((1 - u) ^ m) ^ 2) := by
    rw [Real.sqrt_mul ht, Real.sqrt_sq hw.le]
  rw [this]
  exact Real.sqrt_le_one.2 h2

theorem powF_within (A : Accurate rnd u) (hu1 : u < 1) {k : ℕ} {x y : ℝ} (h : Within u k x y) (n : ℕ) :
    ∃ z, powF rnd (.fin y) n = .fin z ∧ Within u (n * (k + 1)) (x ^ n) z := by
  have hu0 := A.nonneg
  induction n with
  | zero => exact ⟨1, rfl, by simpa using within_refl (u := u) 1⟩
  | succ n ih =>
    obtain ⟨z, h1, h2⟩ := ih
    cases n with
    | zero => exact ⟨y, rfl, by simpa using within_mono hu0 hu1 (Nat.le_succ k) h⟩
    | succ n =>
      obtain ⟨w, e1, e2⟩ := mul_near A z y
      refine ⟨w, ?_, ?_⟩
      · show Dbl.mul rnd (powF rnd (.fin y) (n + 1)) (.fin y) = _
        rw [h1, e1]
      · have := within_round hu0 hu1 (within_mul hu1 h2 h) e2
        rw [← pow_succ] at this
        have e : (n + 1) * (k + 1) + k + 1 = (n + 1 + 1) * (k + 1) := by ring
        rw [e] at this
        exact this

theorem sign_mul {s s' : Sign} {x x' : ℝ} (h : s.Of x) (h' : s'.Of x') : (s.mul s').Of (x * x') := by
  cases s <;> cases s' <;> simp only [Sign.mul, Sign.Of] at * <;> first | trivial | positivity

theorem sign_pow {s : Sign} {x : ℝ} (h : s.Of x) (n : ℕ) :
    (if n = 0 then Sign.pos else if n % 2 = 0 then s.square else s).Of (x ^ n) := by
  split_ifs with h0 h1
  · subst h0
    simp [Sign.Of]
  · have he : Even n := Nat.even_iff.2 h1
    cases s with
    | pos => exact pow_pos (show 0 < x from h) n
    | nonneg => exact he.pow_nonneg x
    | any => exact he.pow_nonneg x
  · cases s with
    | pos => exact pow_pos (show 0 < x from h) n
    | nonneg => exact pow_nonneg (show 0 ≤ x from h) n
    | any => trivial

theorem sign_nonneg {s : Sign} {x : ℝ} (h : s.Of x) (hs : s ≠ .any) : 0 ≤ x := by
  cases s with
  | pos => exact le_of_lt h
  | nonneg => exact h
  | any => exact absurd rfl hs

set_option maxHeartbeats 1000000 in
/-- The error of an expression. -/
theorem evalF_within (A : Accurate rnd u) (hu1 : u < 1) (env : String → ℝ) (envF : String → Res (Dbl ℝ))
    (senv : String → Option (Sign × ℕ)) (e : Expr)
    (henv : ∀ x ∈ e.vars, ∀ s k, senv x = some (s, k) → s.Of (env x) ∧ ∃ y, envF x = .ok (.fin y) ∧ Within u k (env x) y)
    (s : Sign) (k : ℕ) (h : roundings senv e = some (s, k)) :
    s.Of (e.eval env) ∧ ∃ y, e.evalF rnd envF = .ok (.fin y) ∧ Within u k (e.eval env) y := by
  have hu0 := A.nonneg
  induction e generalizing s k with
  | num q =>
    simp only [roundings, Option.some.injEq, Prod.mk.injEq] at h
    obtain ⟨rfl, rfl⟩ := h
    refine ⟨?_, ?_⟩
    · simp only [Expr.eval]
      split_ifs with h1 h2
      · show (0 : ℝ) < q
        exact_mod_cast h1
      · show (0 : ℝ) ≤ q
        rw [h2]; simp
      · trivial
    · obtain ⟨y, hy, ey⟩ := A.near (q : ℝ)
      exact ⟨y, by rw [Expr.evalF, hy], within_round hu0 hu1 (within_refl _) ey⟩
  | var x => exact henv x (by simp [Expr.vars]) s k h
  | add a b iha ihb =>
    simp only [roundings] at h
    cases ha : roundings senv a with
    | none => rw [ha] at h; cases h
    | some p =>
      cases hb : roundings senv b with
      | none => rw [ha, hb] at h; cases h
      | some q =>
        obtain ⟨s1, k1⟩ := p
        obtain ⟨s2, k2⟩ := q
        rw [ha, hb] at h
        simp only at h
        by_cases hs : s1 = .any ∨ s2 = .any
        · rw [if_pos hs] at h
          cases h
        · rw [if_neg hs] at h
          simp only [Option.some.injEq, Prod.mk.injEq] at h
          obtain ⟨rfl, rfl⟩ := h
          push_neg at hs
          obtain ⟨g1, y1, f1, w1⟩ := iha (fun x hx => henv x (by simp [Expr.vars, hx])) _ _ ha
          obtain ⟨g2, y2, f2, w2⟩ := ihb (fun x hx => henv x (by simp [Expr.vars, hx])) _ _ hb
          have n1 := sign_nonneg g1 hs.1
          have n2 := sign_nonneg g2 hs.2
          refine ⟨?_, ?_⟩
          · simp only [Expr.eval]
            split_ifs with hp
            · rcases hp with rfl | rfl
              · exact add_pos_of_pos_of_nonneg g1 n2
              · exact add_pos_of_nonneg_of_pos n1 g2
            · exact add_nonneg n1 n2
          · obtain ⟨z, hz, ez⟩ := add_near A y1 y2
            refine ⟨z, ?_, within_round hu0 hu1 (within_add n1 n2 hu0 hu1 (within_mono hu0 hu1 (le_max_left _ _) w1)
              (within_mono hu0 hu1 (le_max_right _ _) w2)) ez⟩
            simp only [Expr.evalF, f1, f2, bind, Except.bind, pure, Except.pure, hz]
  | sub a b => cases h
  | mul a b iha ihb =>
    simp only [roundings] at h
    cases ha : roundings senv a with
    | none => rw [ha] at h; cases h
    | some p =>
      cases hb : roundings senv b with
      | none => rw [ha, hb] at h; cases h
      | some q =>
        obtain ⟨s1, k1⟩ := p
        obtain ⟨s2, k2⟩ := q
        rw [ha, hb] at h
        simp only [Option.some.injEq, Prod.mk.injEq] at h
        obtain ⟨rfl, rfl⟩ := h
        obtain ⟨g1, y1, f1, w1⟩ := iha (fun x hx => henv x (by simp [Expr.vars, hx])) _ _ ha
        obtain ⟨g2, y2, f2, w2⟩ := ihb (fun x hx => henv x (by simp [Expr.vars, hx])) _ _ hb
        refine ⟨sign_mul g1 g2, ?_⟩
        obtain ⟨z, hz, ez⟩ := mul_near A y1 y2
        refine ⟨z, ?_, within_round hu0 hu1 (within_mul hu1 w1 w2) ez⟩
        simp only [Expr.evalF, f1, f2, bind, Except.bind, pure, Except.pure, hz]
  | div a b iha ihb =>
    simp only [roundings] at h
    cases ha : roundings senv a with
    | none => rw [ha] at h; cases h
    | some p =>
      cases hb : roundings senv b with
      | none => rw [ha, hb] at h; cases h
      | some q =>
        obtain ⟨s1, k1⟩ := p
        obtain ⟨s2, k2⟩ := q
        rw [ha, hb] at h
        cases s2 with
        | nonneg => cases h
        | any => cases h
        | pos =>
          simp only [Option.some.injEq, Prod.mk.injEq] at h
          obtain ⟨rfl, rfl⟩ := h
          obtain ⟨g1, y1, f1, w1⟩ := iha (fun x hx => henv x (by simp [Expr.vars, hx])) _ _ ha
          obtain ⟨g2, y2, f2, w2⟩ := ihb (fun x hx => henv x (by simp [Expr.vars, hx])) _ _ hb
          have hy2 := within_pos hu1 g2 w2
          refine ⟨?_, ?_⟩
          · simp only [Expr.eval]
            have g2' : 0 < b.eval env := g2
            cases s1 with
            | pos => exact div_pos g1 g2'
            | nonneg => exact div_nonneg g1 g2'.le
            | any => trivial
          · obtain ⟨z, hz, ez⟩ := A.near (y1 / y2)
            refine ⟨z, ?_, ?_⟩
            · simp only [Expr.evalF, f1, f2, bind, Except.bind, pure, Except.pure, divF, if_neg hy2.ne', hz]
            · have := within_mul hu1 w1 (within_inv hu1 w2)
              rw [← div_eq_mul_inv, ← div_eq_mul_inv] at this
              exact within_round hu0 hu1 this ez
  | neg a iha =>
    simp only [roundings] at h
    cases ha : roundings senv a with
    | none => rw [ha] at h; cases h
    | some p =>
      obtain ⟨s1, k1⟩ := p
      rw [ha] at h
      simp only [Option.some.injEq, Prod.mk.injEq] at h
      obtain ⟨rfl, rfl⟩ := h
      obtain ⟨g1, y1, f1, w1⟩ := iha (fun x hx => henv x (by simp [Expr.vars, hx])) _ _ ha
      refine ⟨trivial, -y1, ?_, within_neg w1⟩
      simp only [Expr.evalF, f1, bind, Except.bind, pure, Except.pure, Dbl.neg]
  | pow a n iha =>
    simp only [roundings] at h
    cases ha : roundings senv a with
    | none => rw [ha] at h; cases h
    | some p =>
      obtain ⟨s1, k1⟩ := p
      rw [ha] at h
      simp only [Option.some.injEq, Prod.mk.injEq] at h
      obtain ⟨rfl, rfl⟩ := h
      obtain ⟨g1, y1, f1, w1⟩ := iha (fun x hx => henv x (by simp [Expr.vars, hx])) _ _ ha
      obtain ⟨z, hz, ez⟩ := powF_within A hu1 w1 n
      refine ⟨sign_pow g1 n, z, ?_, ez⟩
      simp only [Expr.evalF, f1, bind, Except.bind, pure, Except.pure, hz]
  | sqrt a iha =>
    simp only [roundings] at h
    cases ha : roundings senv a with
    | none => rw [ha] at h; cases h
    | some p =>
      obtain ⟨s1, k1⟩ := p
      rw [ha] at h
      obtain ⟨g1, y1, f1, w1⟩ := iha (fun x hx => henv x (by simp [Expr.vars, hx])) _ _ ha
      have key : 0 ≤ a.eval env → ∃ y, (Expr.sqrt a).evalF rnd envF = .ok (.fin y) ∧
          Within u ((k1 + 1) / 2 + 1) (Real.sqrt (a.eval env)) y := by
        intro h0
        obtain ⟨z, hz, ez⟩ := A.near (Real.sqrt y1)
        refine ⟨z, ?_, within_round hu0 hu1 (within_sqrt h0 hu0 hu1 w1) ez⟩
        simp only [Expr.evalF, f1, bind, Except.bind, pure, Except.pure, sqrtF, if_neg (not_lt.2 (within_nonneg hu1 h0 w1)), hz]
      cases s1 with
      | any => cases h
      | pos =>
        simp only [Option.some.injEq, Prod.mk.injEq] at h
        obtain ⟨rfl, rfl⟩ := h
        exact ⟨Real.sqrt_pos.2 g1, key (le_of_lt g1)⟩
      | nonneg =>
        simp only [Option.some.injEq, Prod.mk.injEq] at h
        obtain ⟨rfl, rfl⟩ := h
        exact ⟨Real.sqrt_nonneg _, key g1⟩
  | arctan2 a b iha ihb =>
    simp only [roundings] at h
    cases ha : roundings senv a with
    | none => rw [ha] at h; cases h
    | some p =>
      cases hb : roundings senv b with
      | none => rw [ha, hb] at h; cases h
      | some q =>
        obtain ⟨s1, k1⟩ := p
        obtain ⟨s2, k2⟩ := q
        rw [ha, hb] at h
        simp only [Option.some.injEq, Prod.mk.injEq] at h
        obtain ⟨rfl, rfl⟩ := h
        obtain ⟨g1, y1, f1, w1⟩ := iha (fun x hx => henv x (by simp [Expr.vars, hx])) _ _ ha
        obtain ⟨g2, y2, f2, w2⟩ := ihb (fun x hx => henv x (by simp [Expr.vars, hx])) _ _ hb
        refine ⟨trivial, ?_⟩
        obtain ⟨z, hz, ez⟩ := A.near (Complex.arg ⟨y2, y1⟩)
        refine ⟨z, ?_, within_round hu0 hu1 (within_arg hu0 hu1 w2 w1) ez⟩
        simp only [Expr.evalF, f1, f2, bind, Except.bind, pure, Except.pure, arctan2F, hz]

/-- The error of a variable. -/
theorem nameF_within (A : Accurate rnd u) (hu1 : u < 1) (reg : String → Option Expr) (src : Sources) (base : String → Sign)
    (hb : SignsOf base src) (fuel : ℕ) (name : String) (v : ℝ) (hm : Means reg src name v) (s : Sign) (k : ℕ)
    (h : roundingsOf reg base fuel name = some (s, k)) :
    s.Of v ∧ ∃ y, nameF rnd reg src fuel name = .ok (.fin y) ∧ Within u k v y := by
  induction fuel generalizing name v s k with
  | zero => cases h
  | succ fuel ih =>
    cases hm with
    | atomic _ _ ha hv =>
      simp only [roundingsOf, if_pos ha, Option.some.injEq, Prod.mk.injEq] at h
      obtain ⟨rfl, rfl⟩ := h
      exact ⟨hb.atomic _ _ ha hv, v, by simp only [nameF, if_pos ha, hv], within_refl v⟩
    | scalar _ e env ha he henv =>
      simp only [roundingsOf, if_neg ha, he] at h
      have := evalF_within A hu1 env (nameF rnd reg src fuel) (roundingsOf reg base fuel) e
        (fun x hx s k hs => ih x (env x) (henv x hx) s k hs) s k h
      refine ⟨this.1, ?_⟩
      simp only [nameF, if_neg ha, he]
      exact this.2
    | constant _ _ ha he hv =>
      simp only [roundingsOf, if_neg ha, he, Option.some.injEq, Prod.mk.injEq] at h
      obtain ⟨rfl, rfl⟩ := h
      exact ⟨hb.constants _ _ ha hv, v, by simp only [nameF, if_neg ha, he, hv], within_refl v⟩
    | numpy _ _ ha he hc hv =>
      simp only [roundingsOf, if_neg ha, he, Option.some.injEq, Prod.mk.injEq] at h
      obtain ⟨rfl, rfl⟩ := h
      exact ⟨hb.np _ _ ha hc hv, v, by simp only [nameF, if_neg ha, he, hc, hv], within_refl v⟩

theorem roundings_mono {env env' : String → Option (Sign × ℕ)} (h : ∀ x r, env x = some r → env' x = some r) (e : Expr)
    (r : Sign × ℕ) (hr : roundings env e = some r) : roundings env' e = some r := by
  induction e generalizing r with
  | num q => exact hr
  | var x => exact h x r hr
  | sub a b => cases hr
  | add a b iha ihb | mul a b iha ihb | div a b iha ihb | arctan2 a b iha ihb =>
    simp only [roundings] at hr ⊢
    cases ha : roundings env a with
    | none => rw [ha] at hr; cases hr
    | some p =>
      cases hb : roundings env b with
      | none => rw [ha, hb] at hr; cases hr
      | some q =>
        rw [ha, hb] at hr
        rw [iha p ha, ihb q hb]
        exact hr
  | neg a iha | pow a n iha | sqrt a iha =>
    simp only [roundings] at hr ⊢
    cases ha : roundings env a with
    | none => rw [ha] at hr; cases hr
    | some p =>
      rw [ha] at hr
      rw [iha p ha]
      exact hr

theorem roundingsOf_succ (reg : String → Option Expr) (base : String → Sign) (fuel : ℕ) (name : String) (r : Sign × ℕ)
    (h : roundingsOf reg base fuel name = some r) : roundingsOf reg base (fuel + 1) name = some r := by
  induction fuel generalizing name r with
  | zero => cases h
  | succ fuel ih =>
    rw [roundingsOf] at h ⊢
    split_ifs at h ⊢ with ha
    · exact h
    · cases he : reg name with
      | none => rw [he] at h; exact h
      | some e =>
        rw [he] at h
        exact roundings_mono (fun x r => ih x r) e r h

/-- More nested calls do not change the number of roundings. -/
theorem roundingsOf_le (reg : String → Option Expr) (base : String → Sign) {fuel fuel' : ℕ} (hf : fuel ≤ fuel') (name : String) (r : Sign × ℕ)
    (h : roundingsOf reg base fuel name = some r) : roundingsOf reg base fuel' name = some r := by
  induction hf with
  | refl => exact h
  | step _ ih => exact roundingsOf_succ _ _ _ _ _ ih

end Postpic.Scalars
