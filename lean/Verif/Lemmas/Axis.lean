import Mathlib.Tactic.Linarith
import Mathlib.Tactic.FieldSimp
import Mathlib.Tactic.Ring
import Mathlib.Algebra.Order.Ring.Abs
import Verif.Model.Axis
import Verif.Spec.Axis

/-!
# Lemmas about axes
-/

set_option autoImplicit false
set_option linter.unusedSectionVars false

namespace Postpic.Axes

open Postpic Postpic.Spec

variable {K : Type} [Field K] [LinearOrder K] [IsStrictOrderedRing K]

/-- The points `grid` interleave with `nodes` with respect to `r`. -/
def Interleave (r : K → K → Prop) : List K → List K → Prop
  | [_], [] => True
  | a :: b :: ns, g :: gs => r a g ∧ r g b ∧ Interleave r (b :: ns) gs
  | _, _ => False

theorem interleave_length {r : K → K → Prop} {ns gs : List K} (h : Interleave r ns gs) :
    ns.length = gs.length + 1 := by
  induction gs generalizing ns with
  | nil =>
    match ns, h with
    | [_], _ => rfl
  | cons g gs ih =>
    match ns, h with
    | a :: b :: ns, h => simp [ih h.2.2]

theorem interleave_iff (r : K → K → Prop) (ns gs : List K) :
    Interleave r ns gs ↔ ns.length = gs.length + 1 ∧
      ∀ (i : ℕ) (a g b : K), ns[i]? = some a → gs[i]? = some g → ns[i + 1]? = some b →
        r a g ∧ r g b := by
  constructor
  · intro h
    refine ⟨interleave_length h, ?_⟩
    induction gs generalizing ns with
    | nil => intro i a g b _ hg; simp at hg
    | cons g gs ih =>
      match ns, h with
      | a :: b :: ns, h =>
        intro i x y z hx hy hz
        cases i with
        | zero =>
          simp at hx hy hz
          subst hx hy hz
          exact ⟨h.1, h.2.1⟩
        | succ i => exact ih _ h.2.2 i x y z (by simpa using hx) (by simpa using hy) (by simpa using hz)
  · rintro ⟨hl, h⟩
    induction gs generalizing ns with
    | nil =>
      match ns, hl with
      | [_], _ => trivial
    | cons g gs ih =>
      match ns, hl with
      | a :: b :: ns, hl =>
        have h0 := h 0 a g b rfl rfl rfl
        exact ⟨h0.1, h0.2, ih _ (by simpa using hl) fun i x y z hx hy hz =>
          h (i + 1) x y z (by simpa using hx) (by simpa using hy) (by simpa using hz)⟩

theorem wf_iff (ns gs : List K) :
    WellFormedAxis ns gs ↔ Interleave (· < ·) ns gs ∨ Interleave (· > ·) ns gs := by
  rw [interleave_iff, interleave_iff]
  unfold WellFormedAxis
  constructor
  · rintro ⟨h, h1 | h1⟩
    · exact Or.inl ⟨h, h1⟩
    · exact Or.inr ⟨h, h1⟩
  · rintro (⟨h, h1⟩ | ⟨h, h1⟩)
    · exact ⟨h, Or.inl h1⟩
    · exact ⟨h, Or.inr h1⟩

/-- Neighbours are related by `r`. -/
def Mono (r : K → K → Prop) : List K → Prop
  | a :: b :: l => r a b ∧ Mono r (b :: l)
  | _ => True

theorem mono_inc (l : List K) : increasing l = true ↔ Mono (· < ·) l := by
  induction l with
  | nil => simp [increasing, Mono]
  | cons a l ih =>
    cases l with
    | nil => simp [increasing, Mono]
    | cons b l => simp [increasing, Mono, ih]

theorem mono_dec (l : List K) : decreasing l = true ↔ Mono (· > ·) l := by
  induction l with
  | nil => simp [decreasing, Mono]
  | cons a l ih =>
    cases l with
    | nil => simp [decreasing, Mono]
    | cons b l => simp [decreasing, Mono, ih]

theorem monotonicity_ne_zero (l : List K) :
    monotonicity l ≠ 0 ↔ Mono (· < ·) l ∨ Mono (· > ·) l := by
  rw [← mono_inc, ← mono_dec]
  unfold monotonicity
  split_ifs <;> simp_all

theorem interleave_mono_nodes {r : K → K → Prop} (ht : ∀ a b c, r a b → r b c → r a c) {ns gs : List K}
    (h : Interleave r ns gs) : Mono r ns := by
  induction gs generalizing ns with
  | nil =>
    match ns, h with
    | [_], _ => trivial
  | cons g gs ih =>
    match ns, h with
    | a :: b :: ns, h => exact ⟨ht _ _ _ h.1 h.2.1, ih h.2.2⟩

theorem interleave_mono_grid {r : K → K → Prop} (ht : ∀ a b c, r a b → r b c → r a c) {ns gs : List K}
    (h : Interleave r ns gs) : Mono r gs := by
  induction gs generalizing ns with
  | nil => trivial
  | cons g gs ih =>
    match ns, h with
    | a :: b :: ns, h =>
      cases gs with
      | nil => trivial
      | cons g' gs =>
        refine ⟨?_, ih h.2.2⟩
        match ns, h.2.2 with
        | c :: ns, h' => exact ht _ _ _ h.2.1 h'.1

theorem interleave_mids {r : K → K → Prop} (hm : ∀ a b, r a b → r a ((a + b) / 2) ∧ r ((a + b) / 2) b)
    {l : List K} (h : Mono r l) (hne : l ≠ []) : Interleave r l (mids l) := by
  induction l with
  | nil => exact absurd rfl hne
  | cons a l ih =>
    cases l with
    | nil => trivial
    | cons b l =>
      exact ⟨(hm a b h.1).1, (hm a b h.1).2, ih h.2 (by simp)⟩

theorem mid_lt (a b : K) (h : a < b) : a < (a + b) / 2 ∧ (a + b) / 2 < b := by
  constructor <;> linarith

theorem mid_gt (a b : K) (h : a > b) : a > (a + b) / 2 ∧ (a + b) / 2 > b := by
  constructor <;> simp only [gt_iff_lt] at * <;> linarith

/-- Grid as nodes of the inner nodes: adding outer nodes gives nodes of the grid. -/
theorem interleave_outer {r : K → K → Prop} {grid inner : List K} (h : Interleave r grid inner) (e0 e1 g0 gl : K)
    (h0 : grid.head? = some g0) (hl : grid.getLast? = some gl) (he0 : r e0 g0) (he1 : r gl e1) :
    Interleave r (e0 :: inner ++ [e1]) grid := by
  induction inner generalizing grid e0 g0 with
  | nil =>
    match grid, h with
    | [g], _ =>
      simp at h0 hl
      subst h0 hl
      exact ⟨he0, he1, trivial⟩
  | cons i is ih =>
    match grid, h with
    | g :: g' :: gs, h =>
      simp at h0
      subst h0
      refine ⟨he0, h.1, ?_⟩
      exact ih h.2.2 i g' rfl (by simpa using hl) h.2.1

theorem mono_of_pairwise {r : K → K → Prop} {l : List K} (h : l.Pairwise r) : Mono r l := by
  induction l with
  | nil => trivial
  | cons a l ih =>
    rw [List.pairwise_cons] at h
    cases l with
    | nil => trivial
    | cons b l => exact ⟨h.1 b (by simp), ih h.2⟩

theorem pairwise_of_mono {r : K → K → Prop} (ht : ∀ a b c, r a b → r b c → r a c) {l : List K}
    (h : Mono r l) : l.Pairwise r := by
  induction l with
  | nil => exact List.Pairwise.nil
  | cons a l ih =>
    cases l with
    | nil => simp
    | cons b l =>
      have h2 := ih h.2
      rw [List.pairwise_cons]
      refine ⟨?_, h2⟩
      intro c hc
      rcases List.mem_cons.1 hc with rfl | hc
      · exact h.1
      · exact ht _ _ _ h.1 ((List.pairwise_cons.1 h2).1 c hc)

theorem mono_linspace_lt (a b : K) (m : ℕ) (h : a < b) : Mono (· < ·) (linspace a b m) := by
  unfold linspace
  apply mono_of_pairwise
  rw [List.pairwise_map]
  refine List.pairwise_lt_range.imp_of_mem ?_
  intro i j hi hj hij
  have hm : 0 < m - 1 := by simp at hi hj; omega
  have hd : 0 < (b - a) / ((m - 1 : ℕ) : K) :=
    div_pos (by linarith) (by exact_mod_cast hm)
  have : (i : K) < (j : K) := by exact_mod_cast hij
  nlinarith

theorem mono_linspace_gt (a b : K) (m : ℕ) (h : a > b) : Mono (· > ·) (linspace a b m) := by
  unfold linspace
  apply mono_of_pairwise
  rw [List.pairwise_map]
  refine List.pairwise_lt_range.imp_of_mem ?_
  intro i j hi hj hij
  have hm : 0 < m - 1 := by simp at hi hj; omega
  have hd : (b - a) / ((m - 1 : ℕ) : K) < 0 :=
    div_neg_of_neg_of_pos (by linarith) (by exact_mod_cast hm)
  have : (i : K) < (j : K) := by exact_mod_cast hij
  simp only [gt_iff_lt]
  nlinarith

/-! ### The check of grid against nodes -/

theorem bcast_eq_len {a b : List K} (h : a.length = b.length) : bcast a b = some (a.zip b) := by
  unfold bcast; rw [if_pos h]

theorem interleave_zip_left {r : K → K → Prop} {ns gs : List K} (h : Interleave r ns gs) :
    ∀ p ∈ gs.zip ns.dropLast, r p.2 p.1 := by
  induction gs generalizing ns with
  | nil => simp
  | cons g gs ih =>
    match ns, h with
    | a :: b :: ns, h =>
      intro p hp
      simp only [List.dropLast_cons_cons, List.zip_cons_cons, List.mem_cons] at hp
      rcases hp with rfl | hp
      · exact h.1
      · exact ih h.2.2 p hp

theorem interleave_zip_right {r : K → K → Prop} {ns gs : List K} (h : Interleave r ns gs) :
    ∀ p ∈ gs.zip ns.tail, r p.1 p.2 := by
  induction gs generalizing ns with
  | nil => simp
  | cons g gs ih =>
    match ns, h with
    | a :: b :: ns, h =>
      intro p hp
      simp only [List.tail_cons, List.zip_cons_cons, List.mem_cons] at hp
      rcases hp with rfl | hp
      · exact h.2.1
      · exact ih h.2.2 p (by simpa using hp)

/-- Well formed pairs pass the check. -/
theorem checkGrid_ok {ns gs : List K} (h : Interleave (· < ·) ns gs ∨ Interleave (· > ·) ns gs) :
    checkGrid gs ns = .ok () := by
  have hl : ns.length = gs.length + 1 := h.elim interleave_length interleave_length
  unfold checkGrid
  rw [bcast_eq_len (by simp [hl]), bcast_eq_len (by simp [hl])]
  simp only
  rcases h with h | h
  · have : (gs.zip ns.dropLast).all (fun p => decide (p.2 < p.1)) = true := by
      rw [List.all_eq_true]
      intro p hp
      simpa using interleave_zip_left h p hp
    rw [this]; rfl
  · cases gs with
    | nil => simp
    | cons g gs =>
      match ns, h with
      | a :: b :: ns, h =>
        have : ((g :: gs).zip (a :: b :: ns).tail).all (fun p => decide (p.1 < p.2)) = false := by
          rw [List.all_eq_false]
          exact ⟨(g, b), by simp, by simpa using (le_of_lt h.2.1)⟩
        rw [this, Bool.and_false]; rfl

theorem lt_tr (a b c : K) (h : a < b) (h' : b < c) : a < c := h.trans h'
theorem gt_tr (a b c : K) (h : a > b) (h' : b > c) : a > c := gt_trans h h'

/-- C18 (acceptance): every well formed pair of nodes and grid is accepted and stored. -/
theorem mkAxis_wf (spl : Splines K) (name unit : String) {ns gs : List K}
    (h : WellFormedAxis ns gs) :
    ∃ e, mkAxis spl { name := name, unit := unit, gridNode := some ns, grid := some gs }
      = .ok ⟨name, unit, ns, gs, e⟩ ∧ ns.head? = some e.1 ∧ ns.getLast? = some e.2 := by
  rw [wf_iff] at h
  have hl : ns.length = gs.length + 1 := h.elim interleave_length interleave_length
  have hne : ns ≠ [] := by rintro rfl; simp at hl
  have h1 : monotonicity ns ≠ 0 := (monotonicity_ne_zero ns).2
    (h.imp (interleave_mono_nodes lt_tr) (interleave_mono_nodes gt_tr))
  have h2 : monotonicity gs ≠ 0 := (monotonicity_ne_zero gs).2
    (h.imp (interleave_mono_grid lt_tr) (interleave_mono_grid gt_tr))
  have h3 := checkGrid_ok h
  refine ⟨(ns.head hne, ns.getLast hne), ?_, List.head?_eq_some_head hne, List.getLast?_eq_some_getLast hne⟩
  simp [mkAxis, h1, h2, h3, List.head?_eq_some_head hne, List.getLast?_eq_some_getLast hne, bind,
    Except.bind, pure, Except.pure]

theorem interleave_head_lt {r : K → K → Prop} {grid inner : List K} (h : Interleave r grid inner)
    (hl : 1 ≤ inner.length) {g0 : K} (h0 : grid.head? = some g0) : r g0 (inner.head?.getD 0) := by
  cases inner with
  | nil => simp at hl
  | cons g gs =>
    match grid, h with
    | a :: b :: ns, h =>
      simp at h0
      subst h0
      exact h.1

theorem interleave_last_lt {r : K → K → Prop} {grid inner : List K} (h : Interleave r grid inner)
    (hl : 1 ≤ inner.length) {gl : K} (h0 : grid.getLast? = some gl) :
    r (inner.getLast?.getD 0) gl := by
  induction inner generalizing grid with
  | nil => simp at hl
  | cons i inner ih =>
    match grid, h with
    | a :: b :: ns, h =>
      cases inner with
      | nil =>
        match ns, h.2.2 with
        | [], _ =>
          simp at h0
          subst h0
          exact h.2.1
      | cons j inner =>
        have := ih h.2.2 (by simp) (by simpa using h0)
        simpa [List.getLast?_cons_cons] using this

theorem linspace_length (a b : K) (m : ℕ) : (linspace a b m).length = m := by simp [linspace]

theorem linspace_get (a b : K) (m i : ℕ) (h : i < m) :
    (linspace a b m)[i]? = some (a + (i : K) * ((b - a) / ((m - 1 : ℕ) : K))) := by
  simp [linspace, h]

theorem linspace_head (a b : K) (m : ℕ) : (linspace a b (m + 1)).head? = some a := by
  rw [List.head?_eq_getElem?, linspace_get _ _ _ _ (by omega)]
  simp

theorem linspace_last (a b : K) (m : ℕ) (hm : 0 < m) :
    (linspace a b (m + 1)).getLast? = some b := by
  rw [List.getLast?_eq_getElem?, linspace_length, linspace_get _ _ _ _ (by omega)]
  have : (m : K) ≠ 0 := by exact_mod_cast hm.ne'
  simp
  field_simp
  ring

theorem mids_get (l : List K) (i : ℕ) (a b : K) (ha : l[i]? = some a) (hb : l[i + 1]? = some b) :
    (mids l)[i]? = some ((a + b) / 2) := by
  unfold mids
  rw [List.getElem?_zipWith, ha, List.getElem?_tail, hb]

theorem mids_length (l : List K) : (mids l).length = l.length - 1 := by
  simp [mids]

theorem uniform_mids (a b : K) (m : ℕ) :
    UniformGrid a b (mids (linspace a b (m + 1))) := by
  intro i g hg
  have hi : i < m := by
    obtain ⟨h, -⟩ := List.getElem?_eq_some_iff.1 hg
    simpa [mids_length, linspace_length] using h
  rw [mids_get _ i _ _ (linspace_get _ _ _ _ (by omega)) (linspace_get _ _ _ _ (by omega))] at hg
  simp only [Option.some.injEq] at hg
  rw [← hg, mids_length, linspace_length]
  push_cast [Nat.add_sub_cancel]
  ring

end Postpic.Axes
