import Mathlib.Tactic.IntervalCases
import Verif.Lemmas.Autoreduce
import Verif.Props.FieldResolution

/-!
# Reducing the resolution until no axis is too long
-/

set_option autoImplicit false
set_option linter.unusedSectionVars false

namespace Postpic.Props

open Postpic Postpic.Axes Postpic.Fields Postpic.Spec

/-- `halvings` is the smallest number which is sufficient. -/
theorem halvings_iff (m n k : ℕ) : halvings m n = k ↔ n / 2 ^ k ≤ m ∧ ∀ j < k, m < n / 2 ^ j := by
  constructor
  · rintro rfl
    exact ⟨halvings_spec m n, fun j hj => halvings_least hj⟩
  · rintro ⟨h1, h2⟩
    rcases lt_trichotomy (halvings m n) k with h | h | h
    · exact absurd (h2 _ h) (not_lt.2 (halvings_spec m n))
    · exact h
    · exact absurd (halvings_least h) (not_lt.2 h1)

/-- C28: `autoreduce` with a positive length halves every axis as often as it is too long, and not more often. The nodes which
remain are nodes of the old axes, the values are the means over the blocks of joined cells, and metadata and domains stay. -/
theorem autoreduce_means {K V : Type} [_root_.Field K] [LinearOrder K] [IsStrictOrderedRing K] [AddCommGroup V] [Module K V]
    (spl : Splines K) (f : Field K V) (hf : f.Sound) (h3 : f.shape.length ≤ 3) (m : ℕ) (hm : 1 ≤ m) (fuel : ℕ)
    (hfuel : ∀ n ∈ f.shape, n < fuel) : ∃ r, f.autoreduce spl m fuel = some (.ok r) ∧ Reduced m f r := by
  obtain ⟨r, h1, -, h2⟩ := autoreduce_reduced spl hm fuel hf h3 hfuel
  exact ⟨r, h1, h2⟩

/-! ### The integral -/

section
variable {K V : Type} [_root_.Field K] [LinearOrder K] [IsStrictOrderedRing K] [AddCommGroup V] [Module K V]

theorem sameIntegral_refl {f : Field K V} (hf : f.Sound) {dims : List ℕ} (hd : ∀ i ∈ dims, i < f.shape.length) :
    SameIntegral dims f f := by
  obtain ⟨s, g1, -⟩ := integrate_fast_partial f hf dims hd
  exact ⟨s, s, g1, g1, rfl, rfl, fun _ _ => rfl⟩

theorem sameIntegral_trans {dims : List ℕ} {f g h : Field K V} (h1 : SameIntegral dims f g) (h2 : SameIntegral dims g h) :
    SameIntegral dims f h := by
  obtain ⟨s, t, a1, a2, a3, a4, a5⟩ := h1
  obtain ⟨t', v, b1, b2, b3, b4, b5⟩ := h2
  rw [a2] at b1
  obtain rfl := Except.ok.inj b1
  refine ⟨s, v, a1, b2, b3.trans a3, b4.trans a4, fun idx hidx => ?_⟩
  rw [b5 idx (by rw [a3]; exact hidx), a5 idx hidx]

theorem even_cells {ax : Axis K} {e h : K} (he : EvenAxis ax e h) {i : ℕ} (hi : i < ax.len) : (cellSizes ax)[i]? = some h := by
  obtain ⟨g1, -, -⟩ := even_iff.1 he
  unfold cellSizes
  rw [List.getElem?_zipWith, List.getElem?_tail, g1, ap_get _ _ _ _ (by omega), ap_get _ _ _ _ (by omega)]
  simp only [Option.some.injEq]
  push_cast
  ring

theorem halveLoop_integral (spl : Splines K) {m : ℕ} (hm : 1 ≤ m) {a : ℕ} (ha2 : a ≤ 2) {dims : List ℕ}
    (fuel : ℕ) {f r : Field K V} (hf : f.Sound) (hd : ∀ i ∈ dims, i < f.shape.length) {ax : Axis K} (hax : f.axes[a]? = some ax)
    (hc : halvings m ax.len ≠ 0 → a ∈ dims ∧ (∃ e h, EvenAxis ax e h) ∧ 2 ^ halvings m ax.len ∣ ax.len)
    (hr : halveLoop spl m a fuel f = some (.ok r)) : SameIntegral dims f r := by
  induction fuel generalizing f ax with
  | zero => simp [halveLoop] at hr
  | succ fuel ih =>
    have hal := (List.getElem?_eq_some_iff.1 hax).1
    unfold halveLoop at hr
    rw [hax] at hr
    simp only at hr
    by_cases h : (m : ℤ) < ax.len
    · rw [if_pos h] at hr
      have hh : halvings m ax.len = halvings m (ax.len / 2) + 1 := halvings_succ (by omega)
      obtain ⟨hda, ⟨e, s, he⟩, hdiv⟩ := hc (by omega)
      rw [hh, pow_succ] at hdiv
      obtain ⟨c, hcc⟩ := hdiv
      have hlen : ax.len = 2 * (ax.len / 2) := by
        have : 2 ∣ ax.len := ⟨2 ^ halvings m (ax.len / 2) * c, hcc.trans (by ring)⟩
        omega
      obtain ⟨q, s', t, k1, k2, k3, k4, k5, k6⟩ := half_resolution_integral_partial spl f hf a (ax.len / 2) ax ha2 hax hlen (by omega)
        (fun i hi => by rw [even_cells he (by omega), even_cells he (by omega)]) dims hd hda
      obtain ⟨q', ax', h1, h2, h3, h4, h5, -⟩ := half_sound spl hf ha2 hax (by omega)
      rw [k1] at h1
      obtain rfl := Except.ok.inj h1
      rw [k1] at hr
      have hax' : q.axes[a]? = some ax' := by rw [h3, List.getElem?_set_self hal]
      have hlq : q.shape.length = f.shape.length := by
        rw [← ok_axes_length h2.ok, h3, List.length_set, ok_axes_length hf.ok]
      refine sameIntegral_trans ⟨s', t, k2, k3, k4, k5, k6⟩ (ih h2 (by rw [hlq]; exact hd) hax' ?_ hr)
      intro _
      refine ⟨hda, ⟨_, _, (axisHalf_joined spl (hf.valid ax (List.mem_of_getElem? hax)) h4).even _ _ he⟩, ?_⟩
      rw [h5]
      refine ⟨c, ?_⟩
      have e2 : ax.len = 2 * (2 ^ halvings m (ax.len / 2) * c) := hcc.trans (by ring)
      omega
    · rw [if_neg h] at hr
      obtain rfl := Except.ok.inj (Option.some.inj hr)
      exact sameIntegral_refl hf hd

theorem reduceLoop_integral (spl : Splines K) {m : ℕ} (hm : 1 ≤ m) (fuel : ℕ) {L : List ℕ} (hL : ∀ i ∈ L, i ≤ 2) (hnd : L.Nodup)
    {f r : Field K V} (hf : f.Sound) (hLn : ∀ i ∈ L, i < f.axes.length) (hfuel : ∀ i ∈ L, ∀ ax, f.axes[i]? = some ax → ax.len < fuel)
    {dims : List ℕ} (hd : ∀ i ∈ dims, i < f.shape.length)
    (hc : ∀ i ∈ L, ∀ ax, f.axes[i]? = some ax → halvings m ax.len ≠ 0 →
      i ∈ dims ∧ (∃ e h, EvenAxis ax e h) ∧ 2 ^ halvings m ax.len ∣ ax.len)
    (hr : reduceLoop spl m fuel L f = some (.ok r)) : SameIntegral dims f r := by
  induction L generalizing f with
  | nil =>
    obtain rfl := Except.ok.inj (Option.some.inj hr)
    exact sameIntegral_refl hf hd
  | cons a L ih =>
    have haf := hLn a (by simp)
    rw [List.nodup_cons] at hnd
    have hax : f.axes[a]? = some f.axes[a] := List.getElem?_eq_getElem haf
    obtain ⟨q, ax', h1, h2, h3, -⟩ := halveLoop_values spl hm (hL a (by simp)) fuel hf hax (hfuel a (by simp) _ hax)
    have hoth : ∀ i ∈ L, q.axes[i]? = f.axes[i]? := by
      intro i hi
      rw [h3, List.getElem?_set_ne]
      rintro rfl
      exact hnd.1 hi
    have hlen : q.axes.length = f.axes.length := by rw [h3, List.length_set]
    have hlq : q.shape.length = f.shape.length := by rw [← ok_axes_length h2.ok, hlen, ok_axes_length hf.ok]
    unfold reduceLoop at hr
    rw [h1] at hr
    exact sameIntegral_trans
      (halveLoop_integral spl hm (hL a (by simp)) fuel hf hd hax (hc a (by simp) _ hax) h1)
      (ih (fun i hi => hL i (by simp [hi])) hnd.2 h2 (fun i hi => by rw [hlen]; exact hLn i (by simp [hi]))
        (fun i hi ax h => hfuel i (by simp [hi]) ax (by rw [← hoth i hi]; exact h)) (by rw [hlq]; exact hd)
        (fun i hi ax h => hc i (by simp [hi]) ax (by rw [← hoth i hi]; exact h)) hr)

/-- C28: `autoreduce` keeps the integral over any set of dimensions which contains those it shortens, if these are evenly spaced
and no cells are left over when they are halved. Partial: cells left over are lost, see `autoreduce_integral_violated`. -/
theorem autoreduce_integral_partial (spl : Splines K) (f : Field K V) (hf : f.Sound) (h3 : f.shape.length ≤ 3) (m : ℕ) (hm : 1 ≤ m)
    (fuel : ℕ) (hfuel : ∀ n ∈ f.shape, n < fuel) (dims : List ℕ) (hd : ∀ i ∈ dims, i < f.shape.length)
    (hc : ∀ (i : ℕ) (ax : Axis K), f.axes[i]? = some ax → m < ax.len →
      i ∈ dims ∧ (∃ e h, EvenAxis ax e h) ∧ 2 ^ halvings m ax.len ∣ ax.len) :
    ∃ r, f.autoreduce spl m fuel = some (.ok r) ∧ SameIntegral dims f r := by
  obtain ⟨r, h1, -⟩ := autoreduce_means spl f hf h3 m hm fuel hfuel
  have hl := ok_axes_length hf.ok
  refine ⟨r, h1, reduceLoop_integral spl hm fuel (L := List.range f.axes.length)
    (by intro i hi; rw [List.mem_range] at hi; omega) List.nodup_range hf (by intro i hi; exact List.mem_range.1 hi)
    (fun i _ ax h => hfuel _ (List.mem_of_getElem? (axis_shape hf h))) hd ?_ h1⟩
  intro i _ ax h h0
  exact hc i ax h (by
    by_contra hle
    exact h0 (halvings_le (by omega)))

end

/-! ### Cases -/

example : halvings 4000 10000 = 2 := (halvings_iff _ _ _).2 ⟨by decide, by intro j hj; interval_cases j <;> decide⟩

example : halvings 4000 4000 = 0 := (halvings_iff _ _ _).2 ⟨by decide, by simp⟩

example := autoreduce_means midSplines field43 field43_sound (by decide) 2 (by decide) 5 (by decide)

example : ((field43.autoreduce midSplines 2 5).map fun r => r.map fun r => (r.shape, values r, r.axes.map (·.gridNode))) =
    some (.ok ([2, 1], [101 / 2, 501 / 2], [[0, 2, 4], [0, 4]])) := by
  decide +kernel

theorem uniform44_even : EvenAxis (uniformAxis 0 4 4) 0 1 := ⟨by decide +kernel, by decide +kernel, by decide +kernel⟩

example : ∃ r, field43.autoreduce midSplines 3 5 = some (.ok r) ∧ SameIntegral [0] field43 r := by
  refine autoreduce_integral_partial midSplines field43 field43_sound (by decide) 3 (by decide) 5 (by decide) [0] (by decide) ?_
  intro i ax h hl
  match i, h with
  | 0, h =>
    obtain rfl := Option.some.inj h
    refine ⟨by simp, ⟨0, 1, uniform44_even⟩, ?_⟩
    have h4 : (uniformAxis 0 4 4).len = 4 := by decide +kernel
    rw [h4, (halvings_iff 3 4 1).2 ⟨by decide, by intro j hj; interval_cases j; decide⟩]
    decide
  | 1, h =>
    obtain rfl := Option.some.inj h
    have h4 : (uniformAxis 0 6 3).len = 3 := by decide +kernel
    omega
  | n + 2, h => simp [field43] at h

/-- C28 (integral) fails for an odd number of points: the last cell is lost. -/
theorem autoreduce_integral_violated :
    ((field43.integrateFast [0, 1]).map values) = .ok [3624] ∧
    ((field43.autoreduce midSplines 2 5).map fun r => r.bind fun r => (r.integrateFast [0, 1]).map values) =
      some (.ok [2408]) := by
  decide +kernel

end Postpic.Props
