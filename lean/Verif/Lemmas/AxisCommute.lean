import Verif.Lemmas.Calculus
import Mathlib.Algebra.BigOperators.GroupWithZero.Action
import Mathlib.Algebra.BigOperators.Intervals
import Mathlib.Data.Multiset.Bind
import Verif.Lemmas.FieldLinear
import Verif.Spec.AxisCommute

/-!
# Lemmas: rules for lines of data are weighted sums, and operations along different axes commute
-/

set_option autoImplicit false
set_option linter.unusedSectionVars false

namespace Postpic.Fields

open Postpic Postpic.Axes Postpic.Spec

variable {K V : Type} [_root_.Field K] [LinearOrder K] [IsStrictOrderedRing K]
  [AddCommGroup V] [Module K V]

/-! ### Weighted sums of the values of a line -/

/-- `T` is a sum of the values of a line of `n` values with fixed weights. -/
def Weighted (K : Type) {V : Type} [_root_.Field K] [AddCommGroup V] [Module K V] (n : ℕ) (T : List V → V) : Prop :=
  ∃ w : ℕ → K, ∀ y : List V, y.length = n → T y = ∑ i ∈ Finset.range n, w i • y.getD i 0

theorem weighted_zero (n : ℕ) : Weighted K n (fun _ : List V => 0) :=
  ⟨fun _ => 0, fun y _ => by simp⟩

theorem weighted_get (n i : ℕ) : Weighted K n (fun y : List V => y.getD i 0) := by
  refine ⟨fun j => if j = i then 1 else 0, fun y hy => ?_⟩
  by_cases hi : i < n
  · rw [Finset.sum_eq_single i]
    · simp
    · intro j _ hj
      simp [hj]
    · intro h
      simp [hi] at h
  · beta_reduce
    rw [List.getD_eq_default _ _ (by omega), Finset.sum_eq_zero]
    intro j hj
    rw [if_neg (by rintro rfl; exact hi (Finset.mem_range.1 hj)), zero_smul]

theorem Weighted.add {n : ℕ} {S T : List V → V} (hS : Weighted K n S) (hT : Weighted K n T) :
    Weighted K n (fun y => S y + T y) := by
  obtain ⟨w, hw⟩ := hS
  obtain ⟨u, hu⟩ := hT
  refine ⟨fun i => w i + u i, fun y hy => ?_⟩
  beta_reduce
  rw [hw y hy, hu y hy, ← Finset.sum_add_distrib]
  exact Finset.sum_congr rfl fun i _ => (add_smul _ _ _).symm

theorem Weighted.smul {n : ℕ} {T : List V → V} (c : K) (hT : Weighted K n T) : Weighted K n (fun y => c • T y) := by
  obtain ⟨w, hw⟩ := hT
  refine ⟨fun i => c * w i, fun y hy => ?_⟩
  beta_reduce
  rw [hw y hy, Finset.smul_sum]
  exact Finset.sum_congr rfl fun i _ => smul_smul _ _ _

theorem Weighted.sub {n : ℕ} {S T : List V → V} (hS : Weighted K n S) (hT : Weighted K n T) :
    Weighted K n (fun y => S y - T y) := by
  obtain ⟨w, hw⟩ := hS.add (hT.smul (-1 : K))
  refine ⟨w, fun y hy => ?_⟩
  rw [← hw y hy]
  beta_reduce
  rw [neg_one_smul, sub_eq_add_neg]

theorem Weighted.congr {n : ℕ} {S T : List V → V} (hT : Weighted K n T) (h : ∀ y, y.length = n → S y = T y) :
    Weighted K n S := by
  obtain ⟨w, hw⟩ := hT
  exact ⟨w, fun y hy => (h y hy).trans (hw y hy)⟩

theorem Weighted.tail {n : ℕ} {T : List V → V} (hT : Weighted K n T) : Weighted K (n + 1) (fun y => T y.tail) := by
  obtain ⟨w, hw⟩ := hT
  refine ⟨fun i => match i with | 0 => 0 | i + 1 => w i, fun y hy => ?_⟩
  beta_reduce
  rw [hw y.tail (by simp [hy]), Finset.sum_range_succ']
  simp only [zero_smul, add_zero]
  refine Finset.sum_congr rfl fun i _ => ?_
  congr 1
  cases y with
  | nil => simp at hy
  | cons v y => simp

theorem Weighted.dropLast {n : ℕ} {T : List V → V} (hT : Weighted K n T) : Weighted K (n + 1) (fun y => T y.dropLast) := by
  obtain ⟨w, hw⟩ := hT
  refine ⟨fun i => if i < n then w i else 0, fun y hy => ?_⟩
  beta_reduce
  rw [hw y.dropLast (by simp [hy]), Finset.sum_range_succ, if_neg (lt_irrefl n), zero_smul, add_zero]
  refine Finset.sum_congr rfl fun i hi => ?_
  have hi' := Finset.mem_range.1 hi
  rw [if_pos hi']
  congr 1
  simp only [List.getD_eq_getElem?_getD]
  rw [List.getElem?_dropLast, if_pos (by omega)]

theorem basicSimpson_weighted : ∀ (n : ℕ) (x : List K), Weighted K n (fun y : List V => basicSimpson x y)
  | 0, x => (weighted_zero 0).congr fun y hy => by
      cases y with
      | nil => cases x <;> unfold basicSimpson <;> simp
      | cons => simp at hy
  | 1, x => (weighted_zero 1).congr fun y hy => by
      match y, hy with
      | [v], _ => unfold basicSimpson; simp
  | 2, x => (weighted_zero 2).congr fun y hy => by
      match y, hy with
      | [v, w], _ => unfold basicSimpson; simp
  | n + 3, x => by
    match x with
    | [] => exact (weighted_zero _).congr fun y _ => by unfold basicSimpson; simp
    | [a] => exact (weighted_zero _).congr fun y _ => by unfold basicSimpson; simp
    | [a, b] => exact (weighted_zero _).congr fun y _ => by unfold basicSimpson; simp
    | a :: b :: c :: x =>
      have ih : Weighted K (n + 3) (fun y : List V => basicSimpson (c :: x) y.tail.tail) :=
        (basicSimpson_weighted (n + 1) (c :: x)).tail.tail
      refine Weighted.congr (Weighted.add (Weighted.smul ((b - a + (c - b)) / 6) (((Weighted.smul (2 - (c - b) / (b - a))
        (weighted_get _ 0)).add (Weighted.smul ((b - a + (c - b)) * (b - a + (c - b)) / ((b - a) * (c - b)))
        (weighted_get _ 1))).add (Weighted.smul (2 - (b - a) / (c - b)) (weighted_get _ 2)))) ih) fun y hy => ?_
      match y, hy with
      | u :: v :: w :: y, _ =>
        simp only [basicSimpson]
        rfl

theorem trapezoid_weighted : ∀ (n : ℕ) (x : List K), Weighted K n (fun y : List V => trapezoid x y)
  | 0, x => (weighted_zero 0).congr fun y hy => by
      cases y with
      | nil => cases x <;> unfold trapezoid <;> simp
      | cons => simp at hy
  | 1, x => (weighted_zero 1).congr fun y hy => by
      match y, hy with
      | [v], _ => unfold trapezoid; simp
  | n + 2, x => by
    match x with
    | [] => exact (weighted_zero _).congr fun y _ => by unfold trapezoid; simp
    | [a] => exact (weighted_zero _).congr fun y _ => by unfold trapezoid; simp
    | a :: b :: x =>
      have ih : Weighted K (n + 2) (fun y : List V => trapezoid (b :: x) y.tail) :=
        (trapezoid_weighted (n + 1) (b :: x)).tail
      refine Weighted.congr (Weighted.add (Weighted.smul ((b - a) / 2) ((weighted_get _ 0).add (weighted_get _ 1))) ih)
        fun y hy => ?_
      match y, hy with
      | u :: v :: y, _ =>
        simp only [trapezoid]
        rfl

theorem cartwright_weighted (h0 h1 : K) (n i j k : ℕ) :
    Weighted K n (fun y : List V => cartwright h0 h1 (y.getD i 0) (y.getD j 0) (y.getD k 0)) := by
  unfold cartwright
  exact ((Weighted.smul _ (weighted_get _ _)).add (Weighted.smul _ (weighted_get _ _))).sub (Weighted.smul _ (weighted_get _ _))

theorem simpson_weighted (n : ℕ) (x : List K) : Weighted K n (fun y : List V => simpson x y) := by
  by_cases h1 : n % 2 = 1
  · refine (basicSimpson_weighted n x).congr fun y hy => ?_
    unfold simpson
    rw [hy]
    simp only [if_pos h1]
  · by_cases h2 : n = 2
    · refine Weighted.congr (Weighted.smul ((x.getD 1 0 - x.getD 0 0) / 2) ((weighted_get n 1).add (weighted_get n 0)))
        fun y hy => ?_
      unfold simpson
      rw [hy]
      simp only [if_neg h1, if_pos h2]
    · cases n with
      | zero =>
        refine (weighted_zero 0).congr fun y hy => ?_
        have : y = [] := List.length_eq_zero_iff.1 hy
        subst this
        unfold simpson cartwright basicSimpson
        simp
      | succ n =>
        refine Weighted.congr (Weighted.add (basicSimpson_weighted n x.dropLast).dropLast (cartwright_weighted
          (x.getD (n + 1 - 2) 0 - x.getD (n + 1 - 3) 0) (x.getD (n + 1 - 1) 0 - x.getD (n + 1 - 2) 0) (n + 1) (n + 1 - 1)
          (n + 1 - 2) (n + 1 - 3))) fun y hy => ?_
        unfold simpson
        rw [hy]
        simp only [if_neg h1, if_neg h2]

/-- The order of two weighted sums does not matter. -/
theorem weighted_swap {n m : ℕ} {S T : List V → V} (hS : Weighted K n S) (hT : Weighted K m T) (g : ℕ → ℕ → V) :
    S ((List.range n).map fun i => T ((List.range m).map fun j => g i j)) =
      T ((List.range m).map fun j => S ((List.range n).map fun i => g i j)) := by
  obtain ⟨w, hw⟩ := hS
  obtain ⟨u, hu⟩ := hT
  have get : ∀ (p : ℕ) (h : ℕ → V) (i : ℕ), i < p → ((List.range p).map h).getD i 0 = h i := by
    intro p h i hi
    rw [List.getD_eq_getElem?_getD, List.getElem?_map, List.getElem?_range hi]
    rfl
  have eS : ∀ h : ℕ → V, S ((List.range n).map h) = ∑ i ∈ Finset.range n, w i • h i := by
    intro h
    rw [hw _ (by simp)]
    exact Finset.sum_congr rfl fun i hi => by rw [get n h i (Finset.mem_range.1 hi)]
  have eT : ∀ h : ℕ → V, T ((List.range m).map h) = ∑ i ∈ Finset.range m, u i • h i := by
    intro h
    rw [hu _ (by simp)]
    exact Finset.sum_congr rfl fun i hi => by rw [get m h i (Finset.mem_range.1 hi)]
  rw [eS, eT]
  simp only [eS, eT, Finset.smul_sum]
  rw [Finset.sum_comm]
  exact Finset.sum_congr rfl fun j _ => Finset.sum_congr rfl fun i _ => smul_comm _ _ _

/-- A rule which is a weighted sum along every line. -/
def WeightedRule (rule : List K → List V → V) : Prop := ∀ n x, Weighted K n (rule x)

theorem simpson_rule : WeightedRule (simpson (K := K) (V := V)) := fun n x => simpson_weighted n x

theorem trapezoid_rule : WeightedRule (trapezoid (K := K) (V := V)) := fun n x => trapezoid_weighted n x

/-- For a weighted rule any flagged dimension may be the innermost one. -/
theorem iterated_any {rule : List K → List V → V} (hr : WeightedRule rule) {a : ℕ} {xs : List (List K)} {sel : List Bool}
    (g : List ℕ → V) {idx : List ℕ} (h1 : xs.length = sel.length + 1) (h2 : a ≤ sel.length)
    (h3 : idx.length = sel.count false) :
    iterated rule xs (sel.insertIdx a true) g idx =
      iterated rule (xs.eraseIdx a) sel (fun j => rule (xs.getD a [])
        ((List.range (xs.getD a []).length).map fun i => g (j.insertIdx a i))) idx := by
  induction a generalizing xs sel g idx with
  | zero =>
    cases xs with
    | nil => simp at h1
    | cons b xs =>
      simp only [List.insertIdx_zero, iterated, List.eraseIdx_cons_zero, List.getD_cons_zero]
      have hl : xs.length = sel.length := by simpa using h1
      clear h1 h2
      induction xs generalizing sel g idx with
      | nil =>
        have : sel = [] := List.length_eq_zero_iff.1 hl.symm
        subst this
        simp [iterated]
      | cons x xs ih =>
        cases sel with
        | nil => simp at hl
        | cons s sel =>
          cases s with
          | true =>
            simp only [iterated]
            rw [weighted_swap (hr _ _) (hr _ _)]
            congr 1
            apply List.map_congr_left
            intro i _
            exact ih (fun j => match j with | [] => g [] | p :: q => g (p :: i :: q)) (by simpa using h3) (by simpa using hl)
          | false =>
            cases idx with
            | nil => simp at h3
            | cons k idx =>
              simp only [iterated]
              exact ih (fun j => match j with | [] => g [] | p :: q => g (p :: k :: q)) (by simpa using h3) (by simpa using hl)
  | succ a ih =>
    cases xs with
    | nil => simp at h1
    | cons b xs =>
      cases sel with
      | nil => simp at h2
      | cons s sel =>
        simp only [List.length_cons, Nat.add_right_cancel_iff] at h1
        simp only [List.length_cons, Nat.add_le_add_iff_right] at h2
        simp only [List.insertIdx_succ_cons, List.eraseIdx_cons_succ, List.getD_cons_succ]
        cases s with
        | true =>
          simp only [iterated]
          congr 1
          apply List.map_congr_left
          intro i _
          rw [ih (fun j => g (i :: j)) h1 h2 (by simpa using h3)]
          rfl
        | false =>
          cases idx with
          | nil => simp at h3
          | cons k idx =>
            simp only [iterated]
            rw [ih (fun j => g (k :: j)) h1 h2 (by simpa using h3)]
            rfl

/-- The values which count for an iterated rule. -/
theorem iterated_congr (rule : List K → List V → V) {xs : List (List K)} {sel : List Bool} {g h : List ℕ → V} {idx : List ℕ}
    (hl : sel.length = xs.length) (he : ∀ j, j.length = xs.length → g j = h j) :
    iterated rule xs sel g idx = iterated rule xs sel h idx ∨ idx.length ≠ sel.count false := by
  by_cases hi : idx.length = sel.count false
  swap
  · exact Or.inr hi
  left
  induction xs generalizing sel g h idx with
  | nil =>
    have := he [] rfl
    cases sel <;> cases idx <;> simpa [iterated] using this
  | cons x xs ih =>
    cases sel with
    | nil => simp at hl
    | cons s sel =>
      cases s with
      | true =>
        simp only [iterated]
        congr 1
        apply List.map_congr_left
        intro i _
        exact ih (by simpa using hl) (fun j hj => he (i :: j) (by simp [hj])) (by simpa using hi)
      | false =>
        cases idx with
        | nil => simp at hi
        | cons k idx =>
          simp only [iterated]
          exact ih (by simpa using hl) (fun j hj => he (k :: j) (by simp [hj])) (by simpa using hi)

/-! ### Derivatives -/

theorem gradientEven_weighted (d : K) (n i : ℕ) :
    Weighted K n (fun y : List V => gradientEven d (fun j => y.getD j 0) n i) := by
  unfold gradientEven
  by_cases h0 : i = 0
  · simp only [if_pos h0]
    exact Weighted.smul _ ((weighted_get _ _).sub (weighted_get _ _))
  · by_cases h1 : i = n - 1
    · simp only [if_neg h0, if_pos h1]
      exact Weighted.smul _ ((weighted_get _ _).sub (weighted_get _ _))
    · simp only [if_neg h0, if_neg h1]
      exact Weighted.smul _ ((weighted_get _ _).sub (weighted_get _ _))

theorem gradientUneven_weighted (d : List K) (n i : ℕ) :
    Weighted K n (fun y : List V => gradientUneven d (fun j => y.getD j 0) n i) := by
  unfold gradientUneven
  by_cases h0 : i = 0
  · simp only [if_pos h0]
    exact Weighted.smul _ ((weighted_get _ _).sub (weighted_get _ _))
  · by_cases h1 : i = n - 1
    · simp only [if_neg h0, if_pos h1]
      exact Weighted.smul _ ((weighted_get _ _).sub (weighted_get _ _))
    · simp only [if_neg h0, if_neg h1]
      exact ((Weighted.smul _ (weighted_get _ _)).add (Weighted.smul _ (weighted_get _ _))).add
        (Weighted.smul _ (weighted_get _ _))

theorem gradientAt_weighted (x : List K) (n i : ℕ) :
    Weighted K n (fun y : List V => gradientAt x (fun j => y.getD j 0) n i) := by
  unfold gradientAt
  by_cases h : ((diffs x).all fun d => decide (d = (diffs x).headD 0)) = true
  · simp only [if_pos h]
    exact gradientEven_weighted _ _ _
  · simp only [if_neg h]
    exact gradientUneven_weighted _ _ _

/-- The derivative at point `i` depends on the points of the line only. -/
theorem gradientAt_congr (x : List K) {n i : ℕ} (h2 : 2 ≤ n) (hi : i < n) {y z : ℕ → V} (h : ∀ j, j < n → y j = z j) :
    gradientAt x y n i = gradientAt x z n i := by
  unfold gradientAt gradientEven gradientUneven
  by_cases h0 : i = 0
  · simp only [if_pos h0, h 0 (by omega), h 1 (by omega)]
  · by_cases h1 : i = n - 1
    · simp only [if_neg h0, if_pos h1, h (n - 1) (by omega), h (n - 2) (by omega)]
    · simp only [if_neg h0, if_neg h1, h (i + 1) (by omega), h (i - 1) (by omega), h i (by omega)]

/-- The derivative at a point as an operation on the list of the values. -/
theorem gradientAt_list (x : List K) {n i : ℕ} (h2 : 2 ≤ n) (hi : i < n) (y : ℕ → V) :
    gradientAt x y n i = gradientAt x (fun j => ((List.range n).map y).getD j 0) n i := by
  apply gradientAt_congr x h2 hi
  intro j hj
  rw [List.getD_eq_getElem?_getD, List.getElem?_map, List.getElem?_range hj]
  rfl

/-! ### Reductions -/

theorem flatMap_swap {α β γ : Type} (l : List α) (m : List β) (g : α → β → γ) :
    List.Perm (l.flatMap fun a => m.map fun b => g a b) (m.flatMap fun b => l.map fun a => g a b) := by
  apply Multiset.coe_eq_coe.1
  have := Multiset.bind_map_comm (l : Multiset α) (m : Multiset β) (f := g)
  simpa using this

/-- The positions along several dimensions: for every position along the others, those along one of them. -/
theorem fibre_insert {a n : ℕ} {s : List ℕ} {sel : List Bool} {idx : List ℕ} (h1 : s.length = sel.length + 1) (h2 : s[a]? = some n) :
    List.Perm (fibre s (sel.insertIdx a true) idx)
      ((fibre (s.eraseIdx a) sel idx).flatMap fun j => (List.range n).map fun i => j.insertIdx a i) := by
  induction a generalizing s sel idx with
  | zero =>
    cases s with
    | nil => simp at h2
    | cons m s =>
      obtain rfl : m = n := by simpa using h2
      simp only [List.insertIdx_zero, fibre, List.eraseIdx_cons_zero]
      exact flatMap_swap _ _ _
  | succ a ih =>
    cases s with
    | nil => simp at h2
    | cons m s =>
      cases sel with
      | nil =>
        simp only [List.length_cons, List.length_nil, Nat.add_eq_right, List.length_eq_zero_iff] at h1
        subst h1
        simp at h2
      | cons b sel =>
        simp only [List.length_cons, Nat.add_right_cancel_iff] at h1
        have h2' : s[a]? = some n := by simpa using h2
        have step : ∀ (i : ℕ) (x : List ℕ), List.Perm ((fibre s (sel.insertIdx a true) x).map (i :: ·))
            (((fibre (s.eraseIdx a) sel x).map (i :: ·)).flatMap fun j => (List.range n).map fun k => j.insertIdx (a + 1) k) := by
          intro i x
          refine ((ih (idx := x) h1 h2').map (i :: ·)).trans ?_
          rw [List.map_flatMap, List.flatMap_map]
          simp only [List.map_map, List.insertIdx_succ_cons]
          exact List.Perm.refl _
        simp only [List.insertIdx_succ_cons, List.eraseIdx_cons_succ]
        cases b with
        | true =>
          simp only [fibre]
          rw [List.flatMap_assoc]
          exact List.Perm.flatMap_left _ fun i _ => step i idx
        | false =>
          simp only [fibre]
          exact step _ _

/-- A method which collects values gives the same for all values at once and for the results of groups of them. -/
theorem collects_fibre {W : Type} {red : List W → W} (hr : Collects red) {a n : ℕ} {s : List ℕ} {sel : List Bool} {idx : List ℕ}
    (h1 : s.length = sel.length + 1) (h2 : s[a]? = some n) (hn : 0 < n) (hne : fibre (s.eraseIdx a) sel idx ≠ [])
    (g : List ℕ → W) :
    red ((fibre s (sel.insertIdx a true) idx).map g) =
      red ((fibre (s.eraseIdx a) sel idx).map fun j => red ((List.range n).map fun i => g (j.insertIdx a i))) := by
  rw [hr.order _ _ ((fibre_insert (idx := idx) h1 h2).map g), List.map_flatMap, List.flatMap_def]
  rw [hr.groups n _ hn]
  · rw [List.map_map]
    congr 1
    apply List.map_congr_left
    intro j _
    simp only [Function.comp_apply, List.map_map]
    rfl
  · simpa using hne
  · intro l hl
    obtain ⟨j, _, rfl⟩ := List.mem_map.1 hl
    simp

theorem fibre_nonempty : ∀ (s : List ℕ) (sel : List Bool) (idx : List ℕ), 0 ∉ s → fibre s sel idx ≠ []
  | [], sel, idx, _ => by simp [fibre]
  | n :: s, [], idx, _ => by simp [fibre]
  | n :: s, true :: sel, idx, h => by
    have ih := fibre_nonempty s sel idx (fun h' => h (by simp [h']))
    simp only [fibre, ne_eq, List.flatMap_eq_nil_iff, List.mem_range, List.map_eq_nil_iff, not_forall]
    exact ⟨0, Nat.pos_of_ne_zero fun h0 => h (by simp [h0]), ih⟩
  | n :: s, false :: sel, idx, h => by
    have ih := fibre_nonempty s sel idx.tail (fun h' => h (by simp [h']))
    simpa [fibre] using ih

/-- The positions along a single dimension. -/
theorem fibre_single {a n : ℕ} {s : List ℕ} {idx : List ℕ} (h2 : s[a]? = some n) (hi : idx.length = s.length - 1) :
    List.Perm (fibre s (flags s.length [a]) idx) ((List.range n).map fun i => idx.insertIdx a i) := by
  have ha := (List.getElem?_eq_some_iff.1 h2).1
  have e : flags s.length [a] = (flags (s.length - 1) []).insertIdx a true := flags_insert ha (by simp)
  rw [e]
  refine (fibre_insert (idx := idx) (by rw [flags_length]; omega) h2).trans ?_
  have none : ∀ (t : List ℕ) (sel : List Bool) (x : List ℕ), (∀ b ∈ sel, b = false) → sel.length = t.length →
      x.length = t.length → fibre t sel x = [x] := by
    intro t
    induction t with
    | nil =>
      intro sel x _ hl hx
      have : sel = [] := List.length_eq_zero_iff.1 hl
      have : x = [] := List.length_eq_zero_iff.1 hx
      subst_vars
      simp [fibre]
    | cons m t ih =>
      intro sel x hs hl hx
      cases sel with
      | nil => simp at hl
      | cons b sel =>
        cases x with
        | nil => simp at hx
        | cons i x =>
          obtain rfl := hs b (by simp)
          simp only [fibre, List.tail_cons, List.headD_cons]
          rw [ih sel x (fun b hb => hs b (by simp [hb])) (by simpa using hl) (by simpa using hx)]
          rfl
  have hlen : (s.eraseIdx a).length = s.length - 1 := List.length_eraseIdx_of_lt ha
  rw [none _ _ _ _ (by rw [flags_length, hlen]) (by rw [hlen, hi])]
  · simp
  · intro b hb
    simp [flags] at hb
    exact hb.2.symm ▸ rfl

end Postpic.Fields
