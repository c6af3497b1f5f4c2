import Mathlib.Tactic.Module
import Mathlib.Tactic.FieldSimp
import Mathlib.Tactic.Ring
import Mathlib.Tactic.LinearCombination
import Verif.Model.Calculus
import Verif.Spec.Calculus
import Verif.Lemmas.FieldReduce
import Verif.Lemmas.AxisSearch

/-!
# Lemmas about quadrature rules and difference quotients
-/

set_option autoImplicit false
set_option linter.unusedSectionVars false

namespace Postpic.Fields

open Postpic Postpic.Axes Postpic.Spec

variable {K V : Type} [_root_.Field K] [LinearOrder K] [IsStrictOrderedRing K]
  [AddCommGroup V] [Module K V]

/-- The integral of the derivative is the difference of the values. -/
theorem parabola_check (c : Parabola V) (a b : K) :
    (c.derivative (K := K)).integral a b = c.value b - c.value a := by
  unfold Parabola.derivative Parabola.integral Parabola.value
  module

theorem parabola_slope_check (c : Parabola V) (x : K) : (c.derivative (K := K)).value x = c.slope x := by
  unfold Parabola.derivative Parabola.slope Parabola.value
  module

theorem integral_join (c : Parabola V) (a b d : K) :
    c.integral a b + c.integral b d = c.integral a d := by
  unfold Parabola.integral
  module

/-- Three weights which are exact for 1, x and x² are exact for parabolas. -/
theorem three_weights {A B C x0 x1 x2 a b : K} (c : Parabola V) (h0 : A + B + C = b - a)
    (h1 : A * x0 + B * x1 + C * x2 = (b ^ 2 - a ^ 2) / 2)
    (h2 : A * x0 ^ 2 + B * x1 ^ 2 + C * x2 ^ 2 = (b ^ 3 - a ^ 3) / 3) :
    A • c.value x0 + B • c.value x1 + C • c.value x2 = c.integral a b := by
  unfold Parabola.integral Parabola.value
  rw [← h0, ← h1, ← h2]
  module

theorem simpson_segment {x0 x1 x2 : K} (h01 : x0 ≠ x1) (h12 : x1 ≠ x2) (h02 : x0 ≠ x2) (c : Parabola V) :
    ((x1 - x0 + (x2 - x1)) / 6) • ((2 - (x2 - x1) / (x1 - x0)) • c.value x0 +
      ((x1 - x0 + (x2 - x1)) * (x1 - x0 + (x2 - x1)) / ((x1 - x0) * (x2 - x1))) • c.value x1 +
      (2 - (x1 - x0) / (x2 - x1)) • c.value x2) = c.integral x0 x2 := by
  have e1 : x1 - x0 ≠ 0 := sub_ne_zero.2 h01.symm
  have e2 : x2 - x1 ≠ 0 := sub_ne_zero.2 h12.symm
  rw [smul_add, smul_add, smul_smul, smul_smul, smul_smul]
  apply three_weights
  · field_simp
    ring
  · field_simp
    ring
  · field_simp
    ring

theorem cartwright_segment {x0 x1 x2 : K} (h01 : x0 ≠ x1) (h12 : x1 ≠ x2) (h02 : x0 ≠ x2) (c : Parabola V) :
    cartwright (x1 - x0) (x2 - x1) (c.value x2) (c.value x1) (c.value x0) = c.integral x1 x2 := by
  have e1 : x1 - x0 ≠ 0 := sub_ne_zero.2 h01.symm
  have e2 : x2 - x1 ≠ 0 := sub_ne_zero.2 h12.symm
  have e3 : x2 - x0 ≠ 0 := sub_ne_zero.2 h02.symm
  have e4 : x2 - x1 + (x1 - x0) = x2 - x0 := by ring
  have e5 : x1 - x0 + (x2 - x1) = x2 - x0 := by ring
  unfold cartwright
  rw [sub_eq_add_neg, ← neg_smul, e4, e5]
  apply three_weights
  · field_simp
    ring
  · field_simp
    ring
  · field_simp
    ring

theorem basicSimpson_sum {m : ℕ} {x : List K} {y : List V} (hx : x.length = 2 * m + 1)
    (hy : y.length = 2 * m + 1) (hn : x.Nodup) (c : ℕ → Parabola V)
    (hc : ∀ j < m, (c j).Through x y [2 * j, 2 * j + 1, 2 * j + 2]) :
    basicSimpson x y = ∑ j ∈ Finset.range m, (c j).integral (x.getD (2 * j) 0) (x.getD (2 * j + 2) 0) := by
  induction m generalizing x y c with
  | zero =>
    match x, hx, y, hy with
    | [_], _, [_], _ => simp [basicSimpson]
  | succ m ih =>
    match x, hx, y, hy with
    | x0 :: x1 :: x2 :: xs, hx, y0 :: y1 :: y2 :: ys, hy =>
      have hn' := hn
      simp only [List.nodup_cons, List.mem_cons, not_or] at hn
      obtain ⟨⟨n01, n02, _⟩, ⟨n12, _⟩, _⟩ := hn
      have h0 := hc 0 (by omega)
      have e0 := h0 0 (by simp)
      have e1 := h0 1 (by simp)
      have e2 := h0 2 (by simp)
      simp only [List.getElem?_cons_zero, List.getElem?_cons_succ, Option.map_some, Option.some.injEq]
        at e0 e1 e2
      rw [Finset.sum_range_succ', basicSimpson, ih (c := fun j => c (j + 1))
        (by simp only [List.length_cons] at hx ⊢; omega)
        (by simp only [List.length_cons] at hy ⊢; omega) hn'.of_cons.of_cons, e0, e1, e2, simpson_segment n01 n12 n02, add_comm]
      · congr 1
      · intro j hj i hi
        have := hc (j + 1) (by omega) (i + 2) (by
          simp only [List.mem_cons, List.not_mem_nil, or_false] at hi ⊢
          omega)
        simpa using this

theorem simpson_odd {m : ℕ} {x : List K} {y : List V} (hx : x.length = 2 * m + 1)
    (hy : y.length = 2 * m + 1) (hn : x.Nodup) (c : ℕ → Parabola V)
    (hc : ∀ j < m, (c j).Through x y [2 * j, 2 * j + 1, 2 * j + 2]) :
    simpson x y = ∑ j ∈ Finset.range m, (c j).integral (x.getD (2 * j) 0) (x.getD (2 * j + 2) 0) := by
  unfold simpson
  simp only
  rw [if_pos (by omega)]
  exact basicSimpson_sum hx hy hn c hc

theorem nodup_getD {x : List K} (hn : x.Nodup) {i j : ℕ} (hi : i < x.length) (hj : j < x.length)
    (hij : i ≠ j) : x.getD i 0 ≠ x.getD j 0 := by
  rw [List.getD_eq_getElem _ _ hi, List.getD_eq_getElem _ _ hj]
  intro h
  exact hij ((hn.getElem_inj_iff).1 h)

theorem through_getD {c : Parabola V} {x : List K} {y : List V} {l : List ℕ} (h : c.Through x y l)
    {i : ℕ} (hi : i ∈ l) (hx : i < x.length) : y.getD i 0 = c.value (x.getD i 0) := by
  have := h i hi
  rw [List.getD_eq_getElem?_getD, List.getD_eq_getElem?_getD, this, List.getElem?_eq_getElem hx]
  rfl

theorem simpson_even {m : ℕ} {x : List K} {y : List V} (hx : x.length = 2 * m + 4)
    (hy : y.length = 2 * m + 4) (hn : x.Nodup) (c : ℕ → Parabola V) (d : Parabola V)
    (hc : ∀ j < m + 1, (c j).Through x y [2 * j, 2 * j + 1, 2 * j + 2])
    (hd : d.Through x y [2 * m + 1, 2 * m + 2, 2 * m + 3]) :
    simpson x y = ∑ j ∈ Finset.range (m + 1), (c j).integral (x.getD (2 * j) 0) (x.getD (2 * j + 2) 0) +
      d.integral (x.getD (2 * m + 2) 0) (x.getD (2 * m + 3) 0) := by
  unfold simpson
  simp only
  rw [if_neg (by omega), if_neg (by omega)]
  have hl : ∀ {α : Type} (l : List α), l.length = 2 * m + 4 → l.dropLast.length = 2 * (m + 1) + 1 := by
    intro α l h
    rw [List.length_dropLast]
    omega
  have hg : ∀ {α : Type} (l : List α), l.length = 2 * m + 4 → ∀ i < 2 * m + 3, l.dropLast[i]? = l[i]? := by
    intro α l h i hi
    rw [List.getElem?_dropLast, if_pos (by omega)]
  rw [basicSimpson_sum (hl x hx) (hl y hy) (hn.sublist (List.dropLast_sublist x)) c]
  · have e : y.length - 1 = 2 * m + 3 ∧ y.length - 2 = 2 * m + 2 ∧ y.length - 3 = 2 * m + 1 := by omega
    rw [e.1, e.2.1, e.2.2, through_getD hd (i := 2 * m + 1) (by simp) (by omega),
      through_getD hd (i := 2 * m + 2) (by simp) (by omega),
      through_getD hd (i := 2 * m + 3) (by simp) (by omega), cartwright_segment]
    · congr 1
      apply Finset.sum_congr rfl
      intro j hj
      rw [Finset.mem_range] at hj
      rw [List.getD_eq_getElem?_getD, List.getD_eq_getElem?_getD, hg x hx _ (by omega), hg x hx _ (by omega),
        ← List.getD_eq_getElem?_getD, ← List.getD_eq_getElem?_getD]
    · exact nodup_getD hn (by omega) (by omega) (by omega)
    · exact nodup_getD hn (by omega) (by omega) (by omega)
    · exact nodup_getD hn (by omega) (by omega) (by omega)
  · intro j hj i hi
    have hi' : i < 2 * m + 3 := by
      simp only [List.mem_cons, List.not_mem_nil, or_false] at hi
      omega
    rw [hg x hx i hi', hg y hy i hi']
    exact hc j hj i hi

theorem integral_telescope (c : Parabola V) (x : ℕ → K) (m : ℕ) :
    ∑ j ∈ Finset.range m, c.integral (x (2 * j)) (x (2 * j + 2)) = c.integral (x 0) (x (2 * m)) := by
  induction m with
  | zero =>
    unfold Parabola.integral
    simp
  | succ m ih =>
    rw [Finset.sum_range_succ, ih, integral_join]
    rfl

/-- Simpson's rule is exact for parabolas. -/
theorem simpson_exact {x : List K} (h3 : 3 ≤ x.length) (hn : x.Nodup) (c : Parabola V) :
    simpson x (x.map c.value) = c.integral (x.getD 0 0) (x.getD (x.length - 1) 0) := by
  have ht : ∀ l, c.Through x (x.map c.value) l := by
    intro l i _
    rw [List.getElem?_map]
  rcases Nat.even_or_odd' x.length with ⟨m, h | h⟩
  · obtain ⟨k, rfl⟩ : ∃ k, m = k + 2 := ⟨m - 2, by omega⟩
    rw [simpson_even (m := k) (by omega) (by rw [List.length_map]; omega) hn (fun _ => c) c (fun _ _ => ht _)
      (ht _), integral_telescope c (fun i => x.getD i 0) (k + 1)]
    have : 2 * (k + 1) = 2 * k + 2 := by omega
    rw [this, integral_join]
    congr 2
    omega
  · rw [simpson_odd (m := m) h (by rw [List.length_map]; omega) hn (fun _ => c) (fun _ _ => ht _),
      integral_telescope c (fun i => x.getD i 0) m]
    congr 2
    omega

/-- Two points. -/
theorem simpson_two {x : List K} {y : List V} (h2 : x.length = 2) (hy : y.length = 2) (c : Parabola V)
    (hr : c.r = 0) (hc : c.Through x y [0, 1]) :
    simpson x y = c.integral (x.getD 0 0) (x.getD 1 0) := by
  match x, h2, y, hy with
  | [x0, x1], _, [y0, y1], _ =>
    have e0 := hc 0 (by simp)
    have e1 := hc 1 (by simp)
    simp only [List.getElem?_cons_zero, List.getElem?_cons_succ, Option.map_some, Option.some.injEq] at e0 e1
    subst e0 e1
    simp only [simpson, List.length_cons, List.length_nil, Nat.reduceAdd, Nat.reduceMod, zero_ne_one,
      if_false, if_true, List.getD_cons_zero, List.getD_cons_succ]
    unfold Parabola.value Parabola.integral
    rw [hr]
    module

theorem trapezoid_sum {m : ℕ} {x : List K} {y : List V} (hx : x.length = m + 1) (hy : y.length = m + 1)
    (c : ℕ → Parabola V) (hr : ∀ j < m, (c j).r = 0) (hc : ∀ j < m, (c j).Through x y [j, j + 1]) :
    trapezoid x y = ∑ j ∈ Finset.range m, (c j).integral (x.getD j 0) (x.getD (j + 1) 0) := by
  induction m generalizing x y c with
  | zero =>
    match x, hx, y, hy with
    | [_], _, [_], _ => simp [trapezoid]
  | succ m ih =>
    match x, hx, y, hy with
    | x0 :: x1 :: xs, hx, y0 :: y1 :: ys, hy =>
      have h0 := hc 0 (by omega)
      have e0 := h0 0 (by simp)
      have e1 := h0 1 (by simp)
      simp only [List.getElem?_cons_zero, List.getElem?_cons_succ, Option.map_some, Option.some.injEq]
        at e0 e1
      rw [Finset.sum_range_succ', trapezoid, ih (c := fun j => c (j + 1)) (by simpa using hx)
        (by simpa using hy) (fun j hj => hr (j + 1) (by omega)), add_comm]
      · congr 1
        rw [e0, e1]
        unfold Parabola.value Parabola.integral
        rw [hr 0 (by omega)]
        simp only [List.getD_cons_zero, List.getD_cons_succ]
        module
      · intro j hj i hi
        have := hc (j + 1) (by omega) (i + 1) (by
          simp only [List.mem_cons, List.not_mem_nil, or_false] at hi ⊢
          omega)
        simpa using this

/-! ### The loop over the axes -/

theorem iterated_none (rule : List K → List V → V) (xs : List (List K)) (sel : List Bool)
    (hs : ∀ b ∈ sel, b = false) (hl : sel.length = xs.length) (g : List ℕ → V) (idx : List ℕ)
    (h : idx.length = xs.length) : iterated rule xs sel g idx = g idx := by
  induction xs generalizing sel g idx with
  | nil =>
    simp at h
    subst h
    simp [iterated]
  | cons b xs ih =>
    cases idx with
    | nil => simp at h
    | cons k idx =>
      cases sel with
      | nil => simp at hl
      | cons s sel =>
        have := hs s (by simp)
        subst this
        simp only [iterated]
        exact ih sel (fun b hb => hs b (by simp [hb])) (by simpa using hl) (fun j => g (k :: j)) idx
          (by simpa using h)

/-- The last flagged dimension is the innermost one. -/
theorem iterated_insert (rule : List K → List V → V) {a : ℕ} {xs : List (List K)} {sel : List Bool}
    (g : List ℕ → V) {idx : List ℕ} (h1 : xs.length = sel.length + 1) (h2 : a ≤ sel.length)
    (h3 : idx.length = sel.count false) (h4 : ∀ d b, a ≤ d → sel[d]? = some b → b = false) :
    iterated rule xs (sel.insertIdx a true) g idx =
      iterated rule (xs.eraseIdx a) sel (fun j => rule (xs.getD a [])
        ((List.range (xs.getD a []).length).map fun i => g (j.insertIdx a i))) idx := by
  induction a generalizing xs sel g idx with
  | zero =>
    cases xs with
    | nil => simp at h1
    | cons b xs =>
      have hall : ∀ b ∈ sel, b = false := by
        intro b hb
        obtain ⟨d, hd⟩ := List.mem_iff_getElem?.1 hb
        exact h4 d b (by omega) hd
      have hc : idx.length = xs.length := by
        rw [h3, List.count_eq_length.2 (fun b hb => (hall b hb).symm)]
        simp at h1
        omega
      have hl : sel.length = xs.length := by simpa using h1.symm
      simp only [List.insertIdx_zero, iterated, List.eraseIdx_cons_zero, List.getD_cons_zero]
      rw [iterated_none rule xs sel hall hl _ idx hc]
      congr 1
      apply List.map_congr_left
      intro i _
      rw [iterated_none rule xs sel hall hl _ idx hc]
  | succ a ih =>
    cases xs with
    | nil => simp at h1
    | cons b xs =>
      cases sel with
      | nil => simp at h2
      | cons s sel =>
        simp only [List.length_cons, Nat.add_right_cancel_iff] at h1
        simp only [List.length_cons, Nat.add_le_add_iff_right] at h2
        have h4' : ∀ d b, a ≤ d → sel[d]? = some b → b = false := by
          intro d b hd hb
          exact h4 (d + 1) b (by omega) (by simpa using hb)
        simp only [List.insertIdx_succ_cons, List.eraseIdx_cons_succ, List.getD_cons_succ]
        cases s with
        | true =>
          simp only [iterated]
          congr 1
          apply List.map_congr_left
          intro i _
          rw [ih (fun j => g (i :: j)) h1 h2 (by simpa using h3) h4']
          rfl
        | false =>
          cases idx with
          | nil => simp at h3
          | cons k idx =>
            simp only [iterated]
            rw [ih (fun j => g (k :: j)) h1 h2 (by simpa using h3) h4']
            rfl

theorem methodStep_sound (rule : List K → List V → V) {f : Field K V} (hf : f.Sound) {a : ℤ} {k : ℕ}
    (ha : pyIdx f.shape.length a = some k) :
    ∃ r, f.methodStep rule a = .ok r ∧ r.Sound ∧ r.name = f.name ∧ r.unit = f.unit ∧
      r.shape = f.shape.eraseIdx k ∧ r.axes = f.axes.eraseIdx k ∧ r.ats = f.ats.eraseIdx k ∧
      r.tao = f.tao.eraseIdx k ∧
      ∀ idx, r.matrix.at' idx = rule ((f.axes.map Axis.grid).getD k [])
        ((List.range ((f.axes.map Axis.grid).getD k []).length).map fun i =>
          f.matrix.at' (idx.insertIdx k i)) := by
  have hk := pyIdx_lt ha
  have hl := ok_axes_length hf.ok
  have hget : f.axes[k]? = some f.axes[k] := List.getElem?_eq_getElem (by omega)
  have e1 : pyGet f.axes a = .ok f.axes[k] := pyGet_of (by rw [hl]; exact ha) hget
  have hs : f.shape[k]? = some f.axes[k].grid.length := by
    rw [← hf.ok.lengths, List.getElem?_map, hget]
    rfl
  have hdel : ∀ {α : Type} (l : List α), l.length = f.shape.length → pyDel l a = .ok (l.eraseIdx k) := by
    intro α l hl
    unfold pyDel
    rw [hl, ha]
  have hD : (f.axes.map Axis.grid).getD k [] = f.axes[k].grid := by
    rw [List.getD_eq_getElem?_getD, List.getElem?_map, hget]
    rfl
  refine ⟨{ f with
      matrix := ⟨f.shape.eraseIdx k, fun idx => rule f.axes[k].grid (line f.matrix k idx)⟩
      axes := f.axes.eraseIdx k, ats := f.ats.eraseIdx k, tao := f.tao.eraseIdx k },
    ?_, ?_, rfl, rfl, rfl, rfl, rfl, rfl, ?_⟩
  · unfold Field.methodStep
    have e2 : axisIdx f.shape.length a = .ok k := by unfold axisIdx; rw [ha]
    rw [e1, e2]
    simp only [bind, Except.bind]
    rw [hs]
    simp only [ne_eq, not_true_eq_false, if_false]
    rw [hdel f.axes hl, hdel f.ats hf.ok.states, hdel f.tao hf.ok.origins]
    rfl
  · refine ⟨⟨?_, ?_, ?_⟩, ?_, ?_⟩
    · show (f.axes.eraseIdx k).map Axis.len = f.shape.eraseIdx k
      rw [← List.eraseIdx_map, hf.ok.lengths]
    · show (f.ats.eraseIdx k).length = (f.shape.eraseIdx k).length
      rw [List.length_eraseIdx, List.length_eraseIdx, hf.ok.states]
    · show (f.tao.eraseIdx k).length = (f.shape.eraseIdx k).length
      rw [List.length_eraseIdx, List.length_eraseIdx, hf.ok.origins]
    · intro ax hmem
      exact hf.valid ax (List.mem_of_mem_eraseIdx hmem)
    · intro h0
      exact hf.nonempty (List.mem_of_mem_eraseIdx h0)
  · intro idx
    show rule f.axes[k].grid (line f.matrix k idx) = _
    rw [hD]
    unfold line
    have : f.matrix.shape.getD k 0 = f.axes[k].grid.length := by
      rw [List.getD_eq_getElem?_getD]
      have : f.matrix.shape[k]? = _ := hs
      rw [this]
      rfl
    rw [this]

theorem methodLoop_sound (rule : List K → List V → V) {f : Field K V} (hf : f.Sound) {L : List ℕ}
    (hn : L.Pairwise (· > ·)) (hL : ∀ i ∈ L, i < f.shape.length) :
    ∃ r, methodLoop rule f (L.map Int.ofNat) = .ok r ∧ r.Sound ∧ r.name = f.name ∧ r.unit = f.unit ∧
      r.shape = unflagged (flags f.shape.length L) f.shape ∧
      r.axes = unflagged (flags f.shape.length L) f.axes ∧
      r.ats = unflagged (flags f.shape.length L) f.ats ∧
      r.tao = unflagged (flags f.shape.length L) f.tao ∧
      ∀ idx, idx.length = r.shape.length → r.matrix.at' idx =
        iterated rule (f.axes.map Axis.grid) (flags f.shape.length L) f.matrix.at' idx := by
  induction L generalizing f with
  | nil =>
    have hl := ok_axes_length hf.ok
    refine ⟨f, by simp [methodLoop], hf, rfl, rfl, ?_, ?_, ?_, ?_, ?_⟩
    · rw [unflagged_none _ _ rfl]
    · rw [unflagged_none _ _ hl]
    · rw [unflagged_none _ _ hf.ok.states]
    · rw [unflagged_none _ _ hf.ok.origins]
    · intro idx hidx
      rw [iterated_none]
      · intro b hb
        simp [flags] at hb
        exact hb.2.symm ▸ rfl
      · rw [flags_length, List.length_map, hl]
      · rw [hidx, List.length_map, hl]
  | cons a L ih =>
    rw [List.pairwise_cons] at hn
    have ha := hL a (by simp)
    have hne : a ∉ L := fun h => lt_irrefl _ (hn.1 a h)
    have hl := ok_axes_length hf.ok
    obtain ⟨r, h1, h2, h3, h4, h5, h6, h7, h8, h9⟩ := methodStep_sound rule hf (pyIdx_nat ha)
    have hlen : r.shape.length = f.shape.length - 1 := by
      rw [h5, List.length_eraseIdx_of_lt ha]
    have hL' : ∀ i ∈ L, i < r.shape.length := by
      intro i hi
      have := hn.1 i hi
      rw [hlen]
      omega
    obtain ⟨r', g1, g2, g3, g4, g5, g6, g7, g8, g9⟩ := ih h2 hn.2 hL'
    rw [hlen] at g5 g6 g7 g8 g9
    have hins : flags f.shape.length (a :: L) = (flags (f.shape.length - 1) L).insertIdx a true := by
      rw [flags_insert ha hne]
      congr 2
      conv_rhs => rw [← List.map_id L]
      apply List.map_congr_left
      intro i hi
      have := hn.1 i hi
      unfold shiftDown
      rw [if_neg (by omega)]
      rfl
    refine ⟨r', ?_, g2, g3.trans h3, g4.trans h4, ?_, ?_, ?_, ?_, ?_⟩
    · rw [List.map_cons, methodLoop]
      have : f.methodStep rule (Int.ofNat a) = .ok r := h1
      rw [this]
      exact g1
    · rw [g5, h5, hins, unflagged_insert ha (by rw [flags_length]; omega)]
    · rw [g6, h6, hins, unflagged_insert (by omega) (by rw [flags_length]; omega)]
    · rw [g7, h7, hins, unflagged_insert (by rw [hf.ok.states]; omega) (by rw [flags_length]; omega)]
    · rw [g8, h8, hins, unflagged_insert (by rw [hf.ok.origins]; omega) (by rw [flags_length]; omega)]
    · intro idx hidx
      rw [g9 idx hidx, hins, iterated_insert rule _ (by rw [flags_length, List.length_map]; omega)
        (by rw [flags_length]; omega), h6, List.eraseIdx_map]
      · congr 1
        funext j
        exact h9 j
      · rw [hidx, g5, h5]
        apply unflagged_count
        rw [flags_length, List.length_eraseIdx_of_lt ha]
      · intro d b hd hb
        have hlt : d < f.shape.length - 1 := by
          have := (List.getElem?_eq_some_iff.1 hb).1
          rwa [flags_length] at this
        have e := flags_get (f.shape.length - 1) L d hlt
        rw [hb] at e
        cases e
        simp only [decide_eq_false_iff_not]
        intro hmem
        have := hn.1 d hmem
        omega

/-- The grid of a valid axis has no repeated points. -/
theorem grid_nodup {ax : Axis K} (h : ValidAxis ax.gridNode ax.grid ax.extent) : ax.grid.Nodup := by
  rcases (wf_iff _ _).1 h.wf with h | h
  · exact (pairwise_of_mono lt_tr (interleave_mono_grid lt_tr h)).imp fun h => ne_of_lt h
  · exact (pairwise_of_mono gt_tr (interleave_mono_grid gt_tr h)).imp fun h => ne_of_gt h

/-! ### Difference quotients -/

theorem diffs_getD (x : List K) {i : ℕ} (hi : i + 1 < x.length) :
    (diffs x).getD i 0 = x.getD (i + 1) 0 - x.getD i 0 := by
  unfold diffs
  rw [List.getD_eq_getElem?_getD, List.getElem?_zipWith, List.getElem?_tail,
    List.getElem?_eq_getElem hi, List.getElem?_eq_getElem (by omega : i < x.length),
    List.getD_eq_getElem _ _ hi, List.getD_eq_getElem _ _ (by omega : i < x.length)]
  rfl

theorem diffs_length (x : List K) : (diffs x).length = x.length - 1 := by
  simp [diffs]

/-- All distances are the first one. -/
theorem diffs_even {x : List K} (h : ((diffs x).all fun d => decide (d = (diffs x).headD 0)) = true)
    {i : ℕ} (hi : i + 1 < x.length) : x.getD (i + 1) 0 - x.getD i 0 = (diffs x).headD 0 := by
  rw [List.all_eq_true] at h
  rw [← diffs_getD x hi]
  have hl : i < (diffs x).length := by rw [diffs_length]; omega
  rw [List.getD_eq_getElem _ _ hl]
  exact of_decide_eq_true (h _ (List.getElem_mem hl))

theorem two_points {x0 x1 : K} (h : x0 ≠ x1) (c : Parabola V) :
    (x1 - x0)⁻¹ • (c.value x1 - c.value x0) = c.q + (x0 + x1) • c.r := by
  have e : x1 - x0 ≠ 0 := sub_ne_zero.2 h.symm
  have : c.value x1 - c.value x0 = (x1 - x0) • (c.q + (x0 + x1) • c.r) := by
    unfold Parabola.value
    module
  rw [this, inv_smul_smul₀ e]

theorem gradient_first {x : List K} (hn : x.Nodup) (h2 : 2 ≤ x.length) (y : ℕ → V) (c : Parabola V)
    (h0 : y 0 = c.value (x.getD 0 0)) (h1 : y 1 = c.value (x.getD 1 0)) :
    gradientAt x y x.length 0 = c.q + (x.getD 0 0 + x.getD 1 0) • c.r := by
  have hne := nodup_getD hn (i := 0) (j := 1) (by omega) (by omega) (by omega)
  unfold gradientAt
  split_ifs with h
  · unfold gradientEven
    rw [if_pos rfl, ← diffs_even h (i := 0) (by omega), h0, h1, two_points hne]
  · unfold gradientUneven
    rw [if_pos rfl, diffs_getD x (by omega), h0, h1, two_points hne]

theorem gradient_last {x : List K} (hn : x.Nodup) (h2 : 2 ≤ x.length) (y : ℕ → V) (c : Parabola V)
    (h0 : y (x.length - 2) = c.value (x.getD (x.length - 2) 0))
    (h1 : y (x.length - 1) = c.value (x.getD (x.length - 1) 0)) :
    gradientAt x y x.length (x.length - 1) =
      c.q + (x.getD (x.length - 2) 0 + x.getD (x.length - 1) 0) • c.r := by
  have hne := nodup_getD hn (i := x.length - 2) (j := x.length - 1) (by omega) (by omega) (by omega)
  have e : x.length - 2 + 1 = x.length - 1 := by omega
  unfold gradientAt
  split_ifs with h
  · unfold gradientEven
    rw [if_neg (by omega), if_pos rfl, ← diffs_even h (i := x.length - 2) (by omega), e, h0, h1,
      two_points hne]
  · unfold gradientUneven
    rw [if_neg (by omega), if_pos rfl, diffs_getD x (by omega), e, h0, h1, two_points hne]

theorem gradient_inner {x : List K} (hn : x.Nodup) {i : ℕ} (hi : i + 2 < x.length) (y : ℕ → V)
    (c : Parabola V) (h0 : y i = c.value (x.getD i 0)) (h1 : y (i + 1) = c.value (x.getD (i + 1) 0))
    (h2 : y (i + 2) = c.value (x.getD (i + 2) 0)) :
    gradientAt x y x.length (i + 1) = c.slope (x.getD (i + 1) 0) := by
  have n01 := nodup_getD hn (i := i) (j := i + 1) (by omega) (by omega) (by omega)
  have n12 := nodup_getD hn (i := i + 1) (j := i + 2) (by omega) (by omega) (by omega)
  have n02 := nodup_getD hn (i := i) (j := i + 2) (by omega) (by omega) (by omega)
  unfold gradientAt
  split_ifs with h
  · unfold gradientEven
    rw [if_neg (by omega), if_neg (by omega)]
    simp only [Nat.add_sub_cancel]
    have e1 := diffs_even h (i := i) (by omega)
    have e2 := diffs_even h (i := i + 1) (by omega)
    have e3 : 2 * (diffs x).headD 0 = x.getD (i + 2) 0 - x.getD i 0 := by
      linear_combination -e1 - e2
    have e4 : x.getD i 0 + x.getD (i + 2) 0 = 2 * x.getD (i + 1) 0 := by
      linear_combination e2 - e1
    rw [e3, show i + 1 + 1 = i + 2 from rfl, h0, h2, two_points n02, e4]
    rfl
  · unfold gradientUneven
    rw [if_neg (by omega), if_neg (by omega)]
    simp only [Nat.add_sub_cancel]
    rw [diffs_getD x (by omega), diffs_getD x (by omega), show i + 1 + 1 = i + 2 from rfl, h0, h1, h2]
    generalize x.getD i 0 = x0 at *
    generalize x.getD (i + 1) 0 = x1 at *
    generalize x.getD (i + 2) 0 = x2 at *
    have d1 : x1 - x0 ≠ 0 := sub_ne_zero.2 n01.symm
    have d2 : x2 - x1 ≠ 0 := sub_ne_zero.2 n12.symm
    have d3 : x2 - x0 ≠ 0 := sub_ne_zero.2 n02.symm
    have d4 : x1 - x0 + (x2 - x1) = x2 - x0 := by ring
    rw [d4]
    set A := -(x2 - x1) / ((x1 - x0) * (x2 - x0)) with hA
    set B := (x2 - x1 - (x1 - x0)) / ((x1 - x0) * (x2 - x1)) with hB
    set C := (x1 - x0) / ((x2 - x1) * (x2 - x0)) with hC
    have s0 : A + B + C = 0 := by
      rw [hA, hB, hC]
      field_simp
      ring
    have s1 : A * x0 + B * x1 + C * x2 = 1 := by
      rw [hA, hB, hC]
      field_simp
      ring
    have s2 : A * x0 ^ 2 + B * x1 ^ 2 + C * x2 ^ 2 = 2 * x1 := by
      rw [hA, hB, hC]
      field_simp
      ring
    have : A • c.value x0 + B • c.value x1 + C • c.value x2 =
        (A + B + C) • c.p + (A * x0 + B * x1 + C * x2) • c.q +
          (A * x0 ^ 2 + B * x1 ^ 2 + C * x2 ^ 2) • c.r := by
      unfold Parabola.value
      module
    rw [this, s0, s1, s2, zero_smul, zero_add, one_smul]
    rfl

theorem derivative_ok {f : Field K V} (hf : f.Sound) {a : ℤ} {k : ℕ} {ax : Axis K}
    (ha : pyIdx f.shape.length a = some k) (hax : f.axes[k]? = some ax) (h2 : 2 ≤ ax.len) :
    f.derivative a = .ok ⟨f.name ++ "'", f.unit, ⟨f.shape, fun idx =>
      gradientAt ax.grid (fun j => f.matrix.at' (idx.set k j)) ax.grid.length (idx.getD k 0)⟩,
      f.axes, f.ats, f.tao⟩ := by
  have hl := ok_axes_length hf.ok
  have e1 : pyGet f.axes a = .ok ax := pyGet_of (by rw [hl]; exact ha) hax
  have hs : f.matrix.shape[k]? = some ax.grid.length := by
    show f.shape[k]? = _
    rw [← hf.ok.lengths, List.getElem?_map, hax]
    rfl
  have e2 : axisIdx f.matrix.shape.length a = .ok k := by
    unfold axisIdx
    rw [show pyIdx f.matrix.shape.length a = some k from ha]
  have h2' : 2 ≤ ax.grid.length := h2
  unfold Field.derivative
  rw [e1]
  simp only [bind, Except.bind]
  unfold Arr.gradient
  rw [e2]
  simp only [bind, Except.bind]
  rw [hs]
  simp only [ne_eq, not_true_eq_false, if_false]
  rw [if_neg (by omega)]
  simp only [pure, Except.pure]
  unfold Field.replaceData
  rw [if_neg (by simp [Field.shape])]
  rfl

end Postpic.Fields
