import Verif.Lemmas.Fft
import Verif.Lemmas.MapCoordinates

/-!
# Lemmas on `topolar`
-/

set_option autoImplicit false
set_option linter.unusedSectionVars false

namespace Postpic.Fields

open Postpic Postpic.Axes Postpic.Spec

theorem grid_axis {spl : Splines ℝ} (hspl : ExactOnEven spl) (name unit : String) {a b : ℝ} (hab : a < b)
    {n : ℕ} (hn : 2 ≤ n) (c : ℝ) :
    ∃ ax, mkAxis spl { name := name, unit := unit, grid := some ((linspace a b n).map (· - c)) } = .ok ax ∧
      ax.name = name ∧ ax.unit = unit ∧ ax.len = n ∧ ax.grid = (linspace a b n).map (· - c) := by
  obtain ⟨m, rfl⟩ : ∃ m, n = m + 1 := ⟨n - 1, by omega⟩
  have hm : 0 < m := by omega
  have hdk : 0 < (b - a) / (m : ℝ) := div_pos (sub_pos.2 hab) (by exact_mod_cast hm)
  have e : (linspace a b (m + 1)).map (· - c) = ap (a - c) ((b - a) / (m : ℝ)) (m + 1) := by
    rw [linspace_ap]
    simp only [ap, List.map_map]
    apply List.map_congr_left
    intro i _
    simp only [Function.comp_apply]
    ring
  rw [e]
  obtain ⟨ax, h1, h2, h3, h4, h5, _⟩ := conj_axis hspl name unit (a - c) hdk (n := m + 1) (by omega)
  exact ⟨ax, h1, h2, h3, h4, h5⟩

theorem topolar_ok {spl : Splines ℝ} (hspl : ExactOnEven spl) (sample : Arr ℝ → List ℝ → Res ℝ)
    {f : Field ℝ ℝ} (hf : f.Sound) {a0 a1 : Axis ℝ} (hax : f.axes = [a0, a1])
    {extent : Option ((ℝ × ℝ) × Option (ℝ × ℝ))} {t0 t1 r0 r1 : ℝ}
    (hext : f.polarExtent extent = .ok ((t0, t1), (r0, r1))) (ht : t0 < t1) (hr : r0 < r1)
    {shape : Option (ℤ × ℤ)} {n m : ℕ}
    (hshape : f.polarShape ((t0, t1), (r0, r1)) shape = .ok ((n : ℤ), (m : ℤ))) (hn : 2 ≤ n)
    (hm : 2 ≤ m) (off : ℝ) (pres : Bool) {p0 p1 : ℝ → ℝ}
    (h0 : ∀ v, a0.valueToIndex v = .ok (p0 v)) (h1 : ∀ v, a1.valueToIndex v = .ok (p1 v))
    {S : List ℝ → ℝ} (hS : ∀ px, px.length = 2 → sample f.matrix px = .ok (S px)) :
    ∃ r t rr, f.topolar spl sample extent shape off pres = .ok r ∧ r.shape = [n, m] ∧
      r.axes = [t, rr] ∧ t.name = "theta" ∧ t.unit = "rad" ∧ t.grid = linspace t0 t1 n ∧
      rr.name = (if a0.name.startsWith "k" then "k" else "r") ∧ rr.unit = a0.unit ∧
      rr.grid = linspace r0 r1 m ∧
      ∀ (i j : ℕ) (th rho : ℝ), t.grid[i]? = some th → rr.grid[j]? = some rho →
        r.matrix.at' [i, j] = (if pres then rho else 1) *
          S [p0 (rho * Real.cos (th - off)), p1 (rho * Real.sin (th - off))] := by
  obtain ⟨t, ta, tb, tc, td, te⟩ := grid_axis hspl "theta" "rad" ht hn 0
  obtain ⟨u, ua, ub, uc, ud, ue⟩ := grid_axis hspl "theta" "rad" ht hn off
  obtain ⟨rr, ra, rb, rc, rd, re⟩ := grid_axis hspl (if a0.name.startsWith "k" then "k" else "r") a0.unit
    hr hm 0
  have z : ∀ l : List ℝ, l.map (· - (0 : ℝ)) = l := by intro l; simp
  rw [z] at ta te ra re
  have hd : f.shape.length = 2 := by
    have := ok_axes_length hf.ok
    rw [hax] at this
    exact this.symm
  let val : List ℕ → ℝ := fun idx =>
    S [p0 (rr.grid.getD (idx.getD 1 0) 0 * Real.cos (u.grid.getD (idx.getD 0 0) 0)),
       p1 (rr.grid.getD (idx.getD 1 0) 0 * Real.sin (u.grid.getD (idx.getD 0 0) 0))]
  have hval : ∀ idx, InBounds ([u, rr].map Axis.len) idx →
      f.sampleAt sample [u, rr] polarTransform idx = .ok (val idx) := by
    intro idx hidx
    have hl : idx.length = 2 := hidx.1
    match idx, hl with
    | [i, j], _ =>
      unfold Field.sampleAt
      have e : polarTransform (gridPoint [u, rr] [i, j]) =
          [rr.grid.getD j 0 * Real.cos (u.grid.getD i 0), rr.grid.getD j 0 * Real.sin (u.grid.getD i 0)] := rfl
      rw [e, hax]
      simp only [List.zip_cons_cons, List.zip_nil_right, List.mapM_cons, List.mapM_nil, h0, h1, bind,
        Except.bind, pure, Except.pure, List.length_cons, List.length_nil, hd]
      rw [if_neg (by simp), hS _ rfl]
      rfl
  obtain ⟨q, q1, q2, q3, q4, q5, q6, q7⟩ := mapCoordinates_ok sample f [u, rr] polarTransform polarJacdet pres
    (some (polarTransform, polarJacdet)) rfl (fun _ => by rw [dims_sound hf, hd]; rfl) val hval
  have qs : q.shape = [n, m] := by rw [q3]; simp [ud, rd]
  refine ⟨{ q with axes := [t, rr] }, t, rr, ?_, qs, rfl, tb, tc, te, rb, rc, re, ?_⟩
  · have l1 : linspaceInt t0 t1 (n : ℤ) = .ok (linspace t0 t1 n) := by simp [linspaceInt]
    have l2 : linspaceInt r0 r1 (m : ℤ) = .ok (linspace r0 r1 m) := by simp [linspaceInt]
    have g0 : pyGet f.axes 0 = .ok a0 := by rw [hax]; rfl
    have sf : q.setFirstAxis t = .ok { q with axes := [t, rr] } := by
      unfold Field.setFirstAxis
      have : pyGet q.shape 0 = .ok n := by rw [qs]; rfl
      simp only [this, bind, Except.bind, td, ne_eq, not_true_eq_false, if_false, q2]
      rfl
    unfold Field.topolar
    simp only [hext, hshape, l1, l2, ta, ua, g0, ra, q1, bind, Except.bind]
    exact sf
  · intro i j th rho hi hj
    have hi' : i < n := by
      obtain ⟨h, _⟩ := List.getElem?_eq_some_iff.1 hi
      rwa [te, linspace_length] at h
    have hj' : j < m := by
      obtain ⟨h, _⟩ := List.getElem?_eq_some_iff.1 hj
      rwa [re, linspace_length] at h
    have hb : InBounds q.shape [i, j] := by
      rw [qs, inBounds_cons, inBounds_cons]
      exact ⟨hi', hj', rfl, by simp⟩
    have gu : u.grid.getD i 0 = th - off := by
      rw [ue, List.getD_eq_getElem?_getD, List.getElem?_map, ← te, hi]
      rfl
    have gr : rr.grid.getD j 0 = rho := by
      rw [List.getD_eq_getElem?_getD, hj]
      rfl
    show q.matrix.at' [i, j] = _
    rw [q7 _ hb]
    have e1 : polarJacdet (gridPoint [u, rr] [i, j]) = rho := gr
    have e2 : val [i, j] = S [p0 (rho * Real.cos (th - off)), p1 (rho * Real.sin (th - off))] := by
      show S [p0 (rr.grid.getD j 0 * Real.cos (u.grid.getD i 0)),
        p1 (rr.grid.getD j 0 * Real.sin (u.grid.getD i 0))] = _
      rw [gu, gr]
    rw [e1, e2]
    cases pres <;> simp

theorem absRange_spec {l : List ℝ} {lo hi : ℝ} (h : absRange l = .ok (lo, hi)) :
    0 ≤ lo ∧ 0 ≤ hi ∧ ∀ x ∈ l, lo ≤ |x| ∧ |x| ≤ hi := by
  unfold absRange at h
  split at h
  · rename_i a b ha hb
    simp only [Except.ok.injEq, Prod.mk.injEq] at h
    obtain ⟨rfl, rfl⟩ := h
    have ma := List.min?_mem ha
    have mb := List.max?_mem hb
    obtain ⟨x, _, rfl⟩ := List.mem_map.1 ma
    obtain ⟨y, _, rfl⟩ := List.mem_map.1 mb
    refine ⟨abs_nonneg _, abs_nonneg _, ?_⟩
    intro z hz
    have hz := List.mem_map_of_mem (f := fun x : ℝ => |x|) hz
    exact ⟨(List.min?_eq_some_iff.1 ha).2 _ hz, (List.max?_eq_some_iff.1 hb).2 _ hz⟩
  · cases h

theorem absRange_ok {l : List ℝ} (h : l ≠ []) : ∃ lo hi, absRange l = .ok (lo, hi) := by
  match l, h with
  | x :: l, _ =>
    unfold absRange
    simp only [List.map_cons, List.min?_cons, List.max?_cons]
    exact ⟨_, _, rfl⟩

end Postpic.Fields
