import Verif.Lemmas.Axis
import Verif.Lemmas.RoundingError
import Verif.Model.AxisFloat

/-!
# Lemmas about axes with rounded nodes
-/

set_option autoImplicit false
set_option linter.unusedSectionVars false

namespace Postpic.Axes

open Postpic Postpic.Spec Postpic.Histogram

variable {K : Type} [Field K] [LinearOrder K] [IsStrictOrderedRing K] [FloorRing K] {rnd : K → Dbl K} {u : K}


/-- A list of computed numbers which are all finite. -/
theorem all_fin {P : ℕ → K → Prop} (f : ℕ → Dbl K) (n : ℕ) (h : ∀ i < n, ∃ y, f i = .fin y ∧ P i y) :
    ∃ y : ℕ → K, (List.range n).map f = ((List.range n).map y).map Dbl.fin ∧ ∀ i < n, f i = .fin (y i) ∧ P i (y i) := by
  classical
  have key : ∀ i < n, f i = .fin ((if hi : i < n then (h i hi).choose else 0)) ∧ P i (if hi : i < n then (h i hi).choose else 0) := by
    intro i hi
    rw [dif_pos hi]
    exact (h i hi).choose_spec
  refine ⟨fun i => if hi : i < n then (h i hi).choose else 0, ?_, key⟩
  rw [List.map_map]
  refine List.map_congr_left fun i hi => ?_
  rw [List.mem_range] at hi
  exact (key i hi).1

set_option maxHeartbeats 1000000 in
/-- One node: `i * step + start`. -/
theorem node_near (A : Accurate rnd u) (hu8 : u ≤ 1 / 8) (e0 e1 : K) (he : e0 ≠ e1) (n i : ℕ) (hn : 0 < n) (hi : i ≤ n) :
    overF rnd n (Dbl.sub rnd (.fin e1) (.fin e0)) ≠ .fin 0 ∧
    ∃ y, Dbl.add rnd (Dbl.mul rnd (.fin i) (overF rnd n (Dbl.sub rnd (.fin e1) (.fin e0)))) (.fin e0) = .fin y ∧
      |y - (e0 + i * ((e1 - e0) / n))| ≤ 6 * u * (|e0| + |e1|) := by
  have hu := A.nonneg
  have hn' : (0 : K) < n := by exact_mod_cast hn
  have hi' : (i : K) ≤ n := by exact_mod_cast hi
  have hi0 : (0 : K) ≤ i := Nat.cast_nonneg _
  obtain ⟨d, hd, ed⟩ := sub_near A e1 e0
  obtain ⟨s, hs, es⟩ := A.near (d / n)
  have hD0 : e1 - e0 ≠ 0 := sub_ne_zero.2 he.symm
  have hDS : |e1 - e0| ≤ |e0| + |e1| := by linarith [abs_sub e1 e0]
  generalize hD : e1 - e0 = D at *
  have hDa := abs_pos.2 hD0
  have hda : |d| ≤ (1 + u) * |D| := by linarith [abs_sub_abs_le_abs_sub d D]
  rw [hd]
  simp only [overF]
  rw [hs]
  -- the step
  have h1 : |s * n - D| ≤ 9 / 4 * u * |D| := by
    have a1 : |s * n - d| ≤ u * |d| := by
      have : s * n - d = (s - d / n) * n := by rw [sub_mul, div_mul_cancel₀ _ hn'.ne']
      rw [this, abs_mul, abs_of_pos hn']
      have := mul_le_mul_of_nonneg_right es hn'.le
      rw [abs_div, abs_of_pos hn', mul_assoc, div_mul_cancel₀ _ hn'.ne'] at this
      exact this
    have a2 := abs_sub_le (s * n) d D
    have a3 := mul_le_mul_of_nonneg_left hda hu
    have a4 : 0 ≤ u * |D| := mul_nonneg hu hDa.le
    have a5 := mul_le_mul_of_nonneg_right hu8 a4
    linarith
  have hs0 : s ≠ 0 := by
    rintro rfl
    rw [zero_mul, zero_sub, abs_neg] at h1
    have := mul_le_mul_of_nonneg_right hu8 hDa.le
    linarith
  refine ⟨by simpa using hs0, ?_⟩
  obtain ⟨p, hp, ep⟩ := mul_near A (i : K) s
  obtain ⟨y, hy, ey⟩ := add_near A p e0
  rw [hp]
  refine ⟨y, hy, ?_⟩
  -- the product
  have h2 : |i * s - i * (D / n)| ≤ 9 / 4 * u * |D| := by
    have e : i * s - i * (D / n) = (i / n) * (s * n - D) := by
      field_simp
    rw [e, abs_mul, abs_of_nonneg (div_nonneg hi0 hn'.le)]
    have : (i : K) / n ≤ 1 := (div_le_one hn').2 hi'
    have := mul_le_mul_of_nonneg_right this (abs_nonneg (s * n - D))
    linarith
  have hx : |i * (D / n)| ≤ |D| := by
    have e : i * (D / n) = (i / n) * D := by ring
    rw [e, abs_mul, abs_of_nonneg (div_nonneg hi0 hn'.le)]
    have : (i : K) / n ≤ 1 := (div_le_one hn').2 hi'
    have := mul_le_mul_of_nonneg_right this (abs_nonneg D)
    linarith
  have hu2 : 0 ≤ u * |D| := mul_nonneg hu hDa.le
  have hu3 := mul_le_mul_of_nonneg_right hu8 hu2
  have h3 : |p - i * (D / n)| ≤ 4 * u * |D| := by
    have b1 := abs_sub_le p (i * s) (i * (D / n))
    have b2 : |(i : K) * s| ≤ |D| + 9 / 4 * u * |D| := by linarith [abs_sub_abs_le_abs_sub (i * s) (i * (D / n))]
    have b3 := mul_le_mul_of_nonneg_left b2 hu
    linarith
  -- the sum
  have hm : |e0 + i * (D / n)| ≤ |e0| + |e1| := by
    have e : e0 + i * (D / n) = (1 - i / n) * e0 + (i / n) * e1 := by
      rw [← hD]; ring
    have t0 : 0 ≤ (i : K) / n := div_nonneg hi0 hn'.le
    have t1 : (i : K) / n ≤ 1 := (div_le_one hn').2 hi'
    rw [e]
    refine le_trans (abs_add_le _ _) ?_
    rw [abs_mul, abs_mul, abs_of_nonneg t0, abs_of_nonneg (by linarith : 0 ≤ 1 - (i : K) / n)]
    have c1 := mul_le_mul_of_nonneg_right t1 (abs_nonneg e1)
    have c2 := mul_nonneg t0 (abs_nonneg e0)
    linarith
  have d1 : p + e0 - (e0 + i * (D / n)) = p - i * (D / n) := by ring
  have d2 := abs_sub_le y (p + e0) (e0 + i * (D / n))
  rw [d1] at d2
  have d3 : |p + e0| ≤ (|e0| + |e1|) + 4 * u * |D| := by
    have := abs_sub_abs_le_abs_sub (p + e0) (e0 + i * (D / n))
    rw [d1] at this
    linarith
  have d4 := mul_le_mul_of_nonneg_left d3 hu
  have d5 := mul_le_mul_of_nonneg_left hDS hu
  linarith

/-- The nodes: finite, the ends exact, each with a small error. -/
theorem linspaceF_near (A : Accurate rnd u) (hu8 : u ≤ 1 / 8) (e0 e1 : K) (he : e0 ≠ e1) (h0 : rnd e0 = .fin e0) (n : ℕ) (hn : 0 < n) :
    ∃ y : ℕ → K, linspaceF rnd e0 e1 (n + 1) = ((List.range (n + 1)).map y).map Dbl.fin ∧ y 0 = e0 ∧ y n = e1 ∧
      ∀ i ≤ n, |y i - (e0 + i * ((e1 - e0) / n))| ≤ 6 * u * (|e0| + |e1|) := by
  have hu := A.nonneg
  have hn' : (n : K) ≠ 0 := by exact_mod_cast hn.ne'
  have hS : 0 ≤ 6 * u * (|e0| + |e1|) :=
    mul_nonneg (mul_nonneg (by norm_num) hu) (add_nonneg (abs_nonneg _) (abs_nonneg _))
  obtain ⟨y, h1, h2⟩ := all_fin (P := fun i y => (i = 0 → y = e0) ∧ (i = n → y = e1) ∧ |y - (e0 + i * ((e1 - e0) / n))| ≤ 6 * u * (|e0| + |e1|))
    (fun i => if i + 1 = n + 1 ∧ 1 < n + 1 then .fin e1
    else Dbl.add rnd (if n + 1 ≤ 1 then Dbl.mul rnd (.fin i) (Dbl.sub rnd (.fin e1) (.fin e0))
      else if overF rnd (n + 1 - 1) (Dbl.sub rnd (.fin e1) (.fin e0)) = .fin 0 then
        Dbl.mul rnd (overF rnd (n + 1 - 1) (.fin i)) (Dbl.sub rnd (.fin e1) (.fin e0))
      else Dbl.mul rnd (.fin i) (overF rnd (n + 1 - 1) (Dbl.sub rnd (.fin e1) (.fin e0)))) (.fin e0)) (n + 1) (by
    intro i hi
    by_cases hl : i = n
    · subst hl
      refine ⟨e1, by simp [hn], fun h => absurd h hn.ne', fun _ => rfl, ?_⟩
      have e : e1 - (e0 + i * ((e1 - e0) / i)) = 0 := by field_simp; ring
      rw [e, abs_zero]
      exact hS
    · obtain ⟨hs, z, hz, ez⟩ := node_near A hu8 e0 e1 he n i hn (by omega)
      rw [if_neg (by omega), if_neg (by omega), Nat.add_sub_cancel, if_neg hs]
      refine ⟨z, hz, ?_, fun h => absurd h hl, ez⟩
      rintro rfl
      obtain ⟨d, hd, -⟩ := sub_near A e1 e0
      obtain ⟨s, hs', -⟩ := A.near (d / n)
      rw [hd] at hz
      simp only [overF] at hz
      rw [hs'] at hz
      obtain ⟨w, hw, ew⟩ := A.near 0
      rw [abs_zero, mul_zero, sub_zero] at ew
      have hw0 : w = 0 := abs_eq_zero.1 (le_antisymm ew (abs_nonneg _))
      simp only [Dbl.mul, Nat.cast_zero, zero_mul] at hz
      rw [hw, hw0] at hz
      simp only [Dbl.add, zero_add] at hz
      rw [h0] at hz
      exact (Dbl.fin.inj hz).symm)
  exact ⟨y, h1, (h2 0 (by omega)).2.1 rfl, (h2 n (by omega)).2.2.1 rfl, fun i hi => (h2 i (by omega)).2.2.2⟩

/-- The mean of two numbers, computed. -/
theorem mean_near (A : Accurate rnd u) (hu8 : u ≤ 1 / 8) (a b S : K) (ha : |a| ≤ 2 * S) (hb : |b| ≤ 2 * S) :
    ∃ c, Dbl.add rnd (Dbl.mul rnd (.fin a) half) (Dbl.mul rnd (.fin b) half) = .fin c ∧ |c - (a + b) / 2| ≤ 5 * u * S := by
  have hu := A.nonneg
  have hS : 0 ≤ S := by linarith [abs_nonneg a]
  unfold half
  obtain ⟨p, hp, ep⟩ := mul_near A a (1 / 2)
  obtain ⟨q, hq, eq⟩ := mul_near A b (1 / 2)
  obtain ⟨c, hc, ec⟩ := add_near A p q
  rw [hp, hq]
  refine ⟨c, hc, ?_⟩
  have f4 : |(1 / 2 : K)| = 1 / 2 := abs_of_nonneg (by norm_num)
  rw [abs_mul, f4] at ep eq
  have h1 := mul_le_mul_of_nonneg_left ha hu
  have h2 := mul_le_mul_of_nonneg_left hb hu
  have h3 : |p + q - (a + b) / 2| ≤ 2 * u * S := by
    have e : p + q - (a + b) / 2 = (p - a * (1 / 2)) + (q - b * (1 / 2)) := by ring
    rw [e]
    have := abs_add_le (p - a * (1 / 2)) (q - b * (1 / 2))
    linarith
  have h4 : |(a + b) / 2| ≤ 2 * S := by
    rw [abs_div, abs_of_pos (by norm_num : (0 : K) < 2)]
    have := abs_add_le a b
    linarith
  have h5 : |p + q| ≤ 2 * S + 2 * u * S := by linarith [abs_sub_abs_le_abs_sub (p + q) ((a + b) / 2)]
  have h6 := mul_le_mul_of_nonneg_left h5 hu
  have h7 : 0 ≤ u * S := mul_nonneg hu hS
  have h8 := mul_le_mul_of_nonneg_right hu8 h7
  have h9 := abs_sub_le c (p + q) ((a + b) / 2)
  linarith

end Postpic.Axes
