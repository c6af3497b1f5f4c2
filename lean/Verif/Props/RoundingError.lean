import Verif.Lemmas.RoundingError
import Mathlib.Data.Rat.Floor
import Mathlib.Data.Int.Log
import Mathlib.Algebra.BigOperators.Ring.List

/-!
# Rounding errors of the particle deposition
-/

set_option autoImplicit false
set_option linter.unusedSectionVars false

namespace Postpic.Props

open Postpic Postpic.Histogram Postpic.Spec

section
variable {K : Type} [Field K] [LinearOrder K] [IsStrictOrderedRing K] [FloorRing K]

/-- C119: the sum of all bins is the sum of the weights up to rounding errors, for particles whose computed position is at least two cells
inside of the range. `u` is the relative error of a single operation (2⁻⁵³ for doubles). -/
theorem histogram_conserved_rounded (rnd : K → Dbl K) (u : K) (A : Accurate rnd u) (spacing : Dbl K → Dbl K) (s : Shape)
    (ps : List (Dbl K × K)) (range : Dbl K × Dbl K) (bins : ℕ) (hb : bins ≤ 2 ^ 31) (hB : u * (bins + 2) ≤ 1 / 4096) (dx : Dbl K)
    (hdx : invSpacingF rnd (fixRangeF rnd spacing range) bins = .ok dx)
    (hps : ∀ p ∈ ps, (Dbl.fin 2).le (computed rnd (fixRangeF rnd spacing range).1 dx p.1) = true ∧
      (computed rnd (fixRangeF rnd spacing range).1 dx p.1).le (.fin (bins - 2)) = true) :
    ∃ h : List K, histogramF rnd spacing s (ps.map Prod.fst) range bins (some (ps.map fun p => .fin p.2)) = .ok (h.map Dbl.fin) ∧
      h.length = bins ∧
      |h.sum - (ps.map Prod.snd).sum| ≤ (176 * (bins + 2) * u + 9 * ((1 + u) ^ (4 * ps.length) - 1)) * (ps.map fun p => |p.2|).sum := by
  have hu := A.nonneg
  -- one particle
  have one : ∀ p ∈ ps, ∃ l : List (ℤ × K),
      (if guardF1 rnd s bins (computed rnd (fixRangeF rnd spacing range).1 dx p.1) = true then
        (.ok ((cellsF rnd s (computed rnd (fixRangeF rnd spacing range).1 dx p.1)).map fun c => (c.1, Dbl.mul rnd c.2 (.fin p.2))) :
          Res (List (ℤ × Dbl K))) else .ok []) = .ok (l.map fun c => (c.1, Dbl.fin c.2)) ∧
      (∀ c ∈ l, (supp s : ℤ) ≤ c.1 ∧ c.1 < supp s + bins) ∧ |(l.map Prod.snd).sum - p.2| ≤ 176 * (bins + 2) * u * |p.2| ∧
      (l.map fun c => |c.2|).sum ≤ 9 * |p.2| ∧ l.length ≤ 4 := by
    intro p hp
    obtain ⟨hx0, hx1⟩ := hps p hp
    obtain ⟨v, ev, hv0, hv1⟩ : ∃ v, computed rnd (fixRangeF rnd spacing range).1 dx p.1 = .fin v ∧ 2 ≤ v ∧ v ≤ bins - 2 := by
      cases hX : computed rnd (fixRangeF rnd spacing range).1 dx p.1 with
      | nan => rw [hX] at hx0; simp [Dbl.le] at hx0
      | inf b => rw [hX] at hx0 hx1; cases b <;> simp [Dbl.le] at hx0 hx1
      | fin v => rw [hX] at hx0 hx1; exact ⟨v, rfl, by simpa [Dbl.le] using hx0, by simpa [Dbl.le] using hx1⟩
    rw [ev]
    obtain ⟨r0, r1, vs, e1, e2, e3⟩ := inner_ref A s hb hv0 hv1 hB
    have hlen : vs.length = (wtsF rnd s (.fin v)).length := by rw [e1, List.length_map]
    rw [wtsF_length] at hlen
    have hg : guardF1 rnd s bins (.fin v) = true := by
      cases s
      · simp only [guardF1, Dbl.lt, Bool.and_eq_true, decide_eq_true_eq]
        constructor <;> linarith
      all_goals
        simp only [guardF1, Bool.and_eq_true, decide_eq_true_eq]
        constructor <;> omega
    rw [if_pos hg]
    have hcells : cellsF rnd s (.fin v) = (vs.zipIdx.map fun vk => (firstCellF rnd s (.fin v) + (vk.2 : ℤ), vk.1)).map
        fun c => (c.1, Dbl.fin c.2) := by
      unfold cellsF
      rw [e1, List.zipIdx_map, List.map_map, List.map_map]
      rfl
    obtain ⟨l, h1, h2, h3, h4⟩ := scaled_near A p.2 (vs.zipIdx.map fun vk => (firstCellF rnd s (.fin v) + (vk.2 : ℤ), vk.1)) (by
      intro c hc
      obtain ⟨vk, hvk, rfl⟩ := List.mem_map.1 hc
      exact e3 _ (List.fst_mem_of_mem_zipIdx hvk))
    have hl4 : vs.length ≤ 4 := by cases s <;> simp_all
    have hl4' : ((vs.length : ℕ) : K) ≤ 4 := by exact_mod_cast hl4
    rw [List.length_map, List.length_zipIdx] at h3 h4
    have hsnd : (vs.zipIdx.map fun vk => (firstCellF rnd s (.fin v) + (vk.2 : ℤ), vk.1)).map Prod.snd = vs := by
      rw [List.map_map]
      exact List.zipIdx_map_fst 0 vs
    rw [hsnd] at h3
    have hw := abs_nonneg p.2
    have hbins : (4 : K) ≤ bins := by linarith
    have hu1 : u ≤ 1 / 4096 := by nlinarith
    refine ⟨l, ?_, ?_, ?_, ?_, ?_⟩
    · rw [← h1, hcells, List.map_map]
      rfl
    · intro c hc
      have hm : c.1 ∈ l.map Prod.fst := List.mem_map_of_mem hc
      rw [h2, List.map_map] at hm
      obtain ⟨vk, hvk, ec⟩ := List.mem_map.1 hm
      have hk := (List.mem_zipIdx hvk).2.1
      rw [← ec]
      simp only [Function.comp_apply, firstCellF]
      cases s <;> simp only [supp] at * <;> push_cast <;> omega
    · have k1 : |vs.sum * p.2 - p.2| ≤ 168 * (u * (bins + 2)) * |p.2| := by
        rw [show vs.sum * p.2 - p.2 = (vs.sum - 1) * p.2 by ring, abs_mul]
        exact mul_le_mul_of_nonneg_right e2 hw
      have k2 : (vs.length : K) * (2 * u * |p.2|) ≤ 8 * (u * (bins + 2)) * |p.2| := by
        have : (vs.length : K) * (2 * u * |p.2|) ≤ 4 * (2 * u * |p.2|) := mul_le_mul_of_nonneg_right hl4' (by positivity)
        have : u * |p.2| ≤ u * (bins + 2) * |p.2| := mul_le_mul_of_nonneg_right (by nlinarith) hw
        linarith
      have := abs_add_le ((l.map Prod.snd).sum - vs.sum * p.2) (vs.sum * p.2 - p.2)
      rw [sub_add_sub_cancel] at this
      calc _ ≤ 8 * (u * (bins + 2)) * |p.2| + 168 * (u * (bins + 2)) * |p.2| := by linarith
        _ = _ := by ring
    · have : (vs.length : K) * (2 * (1 + u) * |p.2|) ≤ 4 * (2 * (1 + u) * |p.2|) := mul_le_mul_of_nonneg_right hl4' (by positivity)
      have : u * |p.2| ≤ 1 / 4096 * |p.2| := mul_le_mul_of_nonneg_right hu1 hw
      linarith
    · have := congrArg List.length h2
      simp only [List.length_map, List.length_zipIdx] at this
      omega
  choose! vals one using one
  obtain ⟨m, hm1, hm2⟩ := loopF_near A (inRange (bins + 2 * supp s)) (fun p : Dbl K × K =>
      if guardF1 rnd s bins (computed rnd (fixRangeF rnd spacing range).1 dx p.1) = true then
        (.ok ((cellsF rnd s (computed rnd (fixRangeF rnd spacing range).1 dx p.1)).map fun c => (c.1, Dbl.mul rnd c.2 (.fin p.2))) :
          Res (List (ℤ × Dbl K))) else .ok []) vals ps (fun p hp => (one p hp).1) (by
    intro p hp c hc
    have := (one p hp).2.1 c hc
    simp only [inRange, Bool.and_eq_true, decide_eq_true_eq]
    push_cast
    omega)
  have hvis : ∀ c ∈ ps.flatMap vals, (supp s : ℤ) ≤ c.1 ∧ c.1 < supp s + bins := by
    intro c hc
    obtain ⟨p, hp, hc⟩ := List.mem_flatMap.1 hc
    exact (one p hp).2.1 c hc
  -- the particles together
  have tot : |((ps.flatMap vals).map Prod.snd).sum - (ps.map Prod.snd).sum| ≤ 176 * (bins + 2) * u * (ps.map fun p => |p.2|).sum ∧
      ((ps.flatMap vals).map fun c => |c.2|).sum ≤ 9 * (ps.map fun p => |p.2|).sum ∧ (ps.flatMap vals).length ≤ 4 * ps.length := by
    clear hps hm1 hm2 hvis
    induction ps with
    | nil => simp
    | cons p ps ih =>
      obtain ⟨t1, t2, t3⟩ := ih fun p hp => one p (by simp [hp])
      obtain ⟨_, _, o1, o2, o3⟩ := one p (by simp)
      simp only [List.flatMap_cons, List.map_append, List.sum_append, List.map_cons, List.sum_cons, List.length_append, List.length_cons]
      refine ⟨?_, by linarith, by omega⟩
      have := abs_add_le (((vals p).map Prod.snd).sum - p.2) (((ps.flatMap vals).map Prod.snd).sum - (ps.map Prod.snd).sum)
      rw [show ((vals p).map Prod.snd).sum - p.2 + (((ps.flatMap vals).map Prod.snd).sum - (ps.map Prod.snd).sum) =
        ((vals p).map Prod.snd).sum + ((ps.flatMap vals).map Prod.snd).sum - (p.2 + (ps.map Prod.snd).sum) by ring] at this
      linarith
  obtain ⟨t1, t2, t3⟩ := tot
  refine ⟨(List.range bins).map fun i : ℕ => m ((supp s : ℤ) + i), ?_, by simp, ?_⟩
  · have hloop : loopF rnd (inRange (bins + 2 * supp s)) (actF1 rnd s bins (fixRangeF rnd spacing range).1 dx
        (some (ps.map fun p => .fin p.2))) (ps.map Prod.fst).zipIdx = .ok fun i => .fin (m i) := by
      rw [← hm1]
      apply loopF_particles
      intro i p hp
      unfold actF1
      simp only [weightAtF, List.getElem?_map, hp, Option.map_some]
      rfl
    unfold histogramF
    simp only [hdx, hloop, bind, Except.bind]
    rw [List.map_map]
    rfl
  · have s1 := sum_near (n := bins) (fun i : ℕ => m ((supp s : ℤ) + i)) (fun i : ℕ => ((valuesAt ((supp s : ℤ) + i) (ps.flatMap vals)).map id).sum)
      (fun i : ℕ => ((1 + u) ^ (ps.flatMap vals).length - 1) * ((valuesAt ((supp s : ℤ) + i) (ps.flatMap vals)).map abs).sum)
      (fun i _ => by simpa using hm2 _)
    rw [sum_valuesAt id _ hvis, List.sum_map_mul_left, sum_valuesAt abs _ hvis] at s1
    simp only [id_eq] at s1
    have hp1 : (1 + u) ^ (ps.flatMap vals).length ≤ (1 + u) ^ (4 * ps.length) := pow_le_pow_right₀ (by linarith) t3
    have hp0 : (1 : K) ≤ (1 + u) ^ (4 * ps.length) := one_le_pow₀ (by linarith)
    have hS : 0 ≤ ((ps.flatMap vals).map fun c => |c.2|).sum := List.sum_nonneg (by
      intro x hx
      obtain ⟨c, _, rfl⟩ := List.mem_map.1 hx
      exact abs_nonneg _)
    have s2 : ((1 + u) ^ (ps.flatMap vals).length - 1) * ((ps.flatMap vals).map fun c => |c.2|).sum ≤
        ((1 + u) ^ (4 * ps.length) - 1) * (9 * (ps.map fun p => |p.2|).sum) :=
      mul_le_mul (by linarith) t2 hS (by linarith)
    have := abs_add_le (((List.range bins).map fun i : ℕ => m ((supp s : ℤ) + i)).sum - ((ps.flatMap vals).map fun c => c.2).sum)
      (((ps.flatMap vals).map Prod.snd).sum - (ps.map Prod.snd).sum)
    rw [show ((ps.flatMap vals).map fun c => c.2) = (ps.flatMap vals).map Prod.snd from rfl, sub_add_sub_cancel] at this
    rw [show ((ps.flatMap vals).map fun c => c.2) = (ps.flatMap vals).map Prod.snd from rfl] at s1
    calc _ ≤ ((1 + u) ^ (4 * ps.length) - 1) * (9 * (ps.map fun p => |p.2|).sum) + 176 * (bins + 2) * u * (ps.map fun p => |p.2|).sum := by
          linarith
      _ = _ := by ring

/-- C119: a bin of a histogram of order 0 contains the sum of the weights of the particles in it, up to rounding errors. -/
theorem histogram_weights_rounded (rnd : K → Dbl K) (u : K) (A : Accurate rnd u) (spacing : Dbl K → Dbl K) (ps : List (Dbl K × K))
    (range : Dbl K × Dbl K) (bins : ℕ) (hb : bins ≤ 2 ^ 31) (dx : Dbl K)
    (hdx : invSpacingF rnd (fixRangeF rnd spacing range) bins = .ok dx) :
    ∃ h : ℕ → K, histogramF rnd spacing .ngp (ps.map Prod.fst) range bins (some (ps.map fun p => .fin p.2)) =
        .ok ((List.range bins).map fun i => .fin (h i)) ∧
      ∀ i < bins, |h i - ((ps.filter fun p => inBin i (computed rnd (fixRangeF rnd spacing range).1 dx p.1)).map Prod.snd).sum| ≤
        ((1 + u) ^ (ps.length + 1) - 1) *
          ((ps.filter fun p => inBin i (computed rnd (fixRangeF rnd spacing range).1 dx p.1)).map fun p => |p.2|).sum := by
  have hu := A.nonneg
  let X : Dbl K → Dbl K := computed rnd (fixRangeF rnd spacing range).1 dx
  choose r er hr using fun w : K => mul_near A 1 w
  simp only [one_mul] at hr
  obtain ⟨m, hm1, hm2⟩ := loopF_near A (inRange (bins + 2 * supp .ngp)) (fun p : Dbl K × K =>
      if guardF1 rnd .ngp bins (X p.1) = true then
        (.ok ((cellsF rnd .ngp (X p.1)).map fun c => (c.1, Dbl.mul rnd c.2 (.fin p.2))) :
          Res (List (ℤ × Dbl K))) else .ok [])
      (fun p => if guardF1 rnd .ngp bins (X p.1) = true then [((X p.1).cast, r p.2)] else []) ps (by
    intro p _
    by_cases hg : guardF1 rnd .ngp bins (X p.1) = true
    · simp [hg, cellsF, wtsF, firstCellF, cellRefF, er]
    · simp [hg]) (by
    intro p _ c hc
    by_cases hg : guardF1 rnd .ngp bins (X p.1) = true
    · rw [if_pos hg, List.mem_singleton] at hc
      obtain ⟨g0, g1, g2⟩ := guardF1_ref hb hg
      have g3 := g2 rfl
      simp only [cellRefF] at g0 g3
      rw [hc]
      simp only [inRange, supp, Bool.and_eq_true, decide_eq_true_eq]
      exact ⟨g0, by simpa using g3⟩
    · rw [if_neg hg] at hc
      cases hc)
  refine ⟨fun i => m i, ?_, ?_⟩
  · have hloop : loopF rnd (inRange (bins + 2 * supp .ngp)) (actF1 rnd .ngp bins (fixRangeF rnd spacing range).1 dx
        (some (ps.map fun p => .fin p.2))) (ps.map Prod.fst).zipIdx = .ok fun i => .fin (m i) := by
      rw [← hm1]
      apply loopF_particles
      intro i p hp
      unfold actF1
      simp only [weightAtF, List.getElem?_map, hp, Option.map_some]
      rfl
    unfold histogramF
    simp only [hdx, hloop, bind, Except.bind]
    simp only [supp, Nat.cast_zero, zero_add]
    rfl
  · intro i hi
    have hval : valuesAt (i : ℤ) (ps.flatMap fun p => if guardF1 rnd .ngp bins (X p.1) = true then [((X p.1).cast, r p.2)] else []) =
        (ps.filter fun p => inBin i (X p.1)).map fun p => r p.2 := by
      clear hm1 hm2
      induction ps with
      | nil => rfl
      | cons p ps ih =>
        have key := inBin_iff (rnd := rnd) hb hi (X p.1)
        rw [List.flatMap_cons]
        unfold valuesAt at ih ⊢
        rw [List.filter_append, List.map_append, ih, List.filter_cons]
        by_cases hin : inBin i (X p.1) = true
        · obtain ⟨k1, k2⟩ := key.2 hin
          simp [hin, k1, k2]
        · have : ¬ (guardF1 rnd .ngp bins (X p.1) = true ∧ (X p.1).cast = (i : ℤ)) := fun h => hin (key.1 h)
          by_cases hg : guardF1 rnd .ngp bins (X p.1) = true
          · have h2 : (X p.1).cast ≠ (i : ℤ) := fun h => this ⟨hg, h⟩
            simp [hin, hg, h2]
          · simp [hin, hg]
    have hlen : (ps.flatMap fun p => if guardF1 rnd .ngp bins (X p.1) = true then [((X p.1).cast, r p.2)] else []).length ≤ ps.length := by
      clear hm1 hm2 hval
      induction ps with
      | nil => simp
      | cons p ps ih =>
        rw [List.flatMap_cons, List.length_append, List.length_cons]
        have : (if guardF1 rnd .ngp bins (X p.1) = true then [((X p.1).cast, r p.2)] else []).length ≤ 1 := by split <;> simp
        omega
    have h := hm2 i
    rw [hval] at h
    have hp1 : (1 + u) ^ (ps.flatMap fun p => if guardF1 rnd .ngp bins (X p.1) = true then [((X p.1).cast, r p.2)] else []).length ≤
        (1 + u) ^ ps.length := pow_le_pow_right₀ (by linarith) hlen
    have hp0 : (1 : K) ≤ (1 + u) ^ ps.length := one_le_pow₀ (by linarith)
    show |m i - ((ps.filter fun p => inBin i (X p.1)).map Prod.snd).sum| ≤
      ((1 + u) ^ (ps.length + 1) - 1) * ((ps.filter fun p => inBin i (X p.1)).map fun p => |p.2|).sum
    generalize ps.filter (fun p => inBin i (X p.1)) = qs at h
    have hr1 : |(qs.map fun p => r p.2).sum - (qs.map Prod.snd).sum| ≤ u * (qs.map fun p => |p.2|).sum ∧
        ((qs.map fun p => r p.2).map abs).sum ≤ (1 + u) * (qs.map fun p => |p.2|).sum ∧ 0 ≤ (qs.map fun p => |p.2|).sum ∧
        0 ≤ ((qs.map fun p => r p.2).map abs).sum := by
      clear h
      induction qs with
      | nil => simp
      | cons q qs ih =>
        obtain ⟨i1, i2, i3, i4⟩ := ih
        have hq := hr q.2
        have h1 := abs_add_le (r q.2 - q.2) ((qs.map fun p => r p.2).sum - (qs.map Prod.snd).sum)
        rw [show r q.2 - q.2 + ((qs.map fun p => r p.2).sum - (qs.map Prod.snd).sum) =
          r q.2 + (qs.map fun p => r p.2).sum - (q.2 + (qs.map Prod.snd).sum) by ring] at h1
        have h2 := abs_add_le (r q.2 - q.2) q.2
        rw [sub_add_cancel] at h2
        have h3 := abs_nonneg q.2
        have h4 := abs_nonneg (r q.2)
        simp only [List.map_cons, List.sum_cons]
        refine ⟨by linarith, by linarith, by linarith, by linarith⟩
    obtain ⟨i1, i2, i3, i4⟩ := hr1
    have h5 := abs_add_le (m i - (qs.map fun p => r p.2).sum) ((qs.map fun p => r p.2).sum - (qs.map Prod.snd).sum)
    rw [sub_add_sub_cancel] at h5
    have h6 : ((1 + u) ^ (ps.flatMap fun p => if guardF1 rnd .ngp bins (X p.1) = true then [((X p.1).cast, r p.2)] else []).length - 1) *
        ((qs.map fun p => r p.2).map abs).sum ≤ ((1 + u) ^ ps.length - 1) * ((1 + u) * (qs.map fun p => |p.2|).sum) :=
      mul_le_mul (by linarith) i2 i4 (by linarith)
    calc _ ≤ ((1 + u) ^ ps.length - 1) * ((1 + u) * (qs.map fun p => |p.2|).sum) + u * (qs.map fun p => |p.2|).sum := by linarith
      _ = _ := by rw [pow_succ]; ring

end

/-! ### Examples -/

/-- Numbers with 53 binary digits, rounded down, without limits of the exponent. -/
def binary53 (x : ℚ) : Dbl ℚ := .fin (⌊x / 2 ^ (Int.log 2 |x| - 52)⌋ * 2 ^ (Int.log 2 |x| - 52))

theorem binary53_accurate : Accurate binary53 (1 / 2 ^ 52) where
  nonneg := by norm_num
  near x := by
    refine ⟨_, rfl, ?_⟩
    have hpos : (0 : ℚ) < 2 ^ (Int.log 2 |x| - 52) := zpow_pos (by norm_num) _
    generalize hs : (2 : ℚ) ^ (Int.log 2 |x| - 52) = t at hpos
    have h1 := Int.floor_le (x / t)
    have h2 := Int.lt_floor_add_one (x / t)
    have h3 : x / t * t = x := div_mul_cancel₀ _ hpos.ne'
    by_cases hx : x = 0
    · subst hx
      simp
    have h4 : t ≤ 1 / 2 ^ 52 * |x| := by
      have := Int.zpow_log_le_self (b := 2) (by norm_num) (abs_pos.2 hx)
      rw [← hs, zpow_sub₀ (by norm_num)]
      push_cast at this
      have e : (2 : ℚ) ^ (52 : ℤ) = 2 ^ 52 := by norm_num
      rw [e]
      calc (2 : ℚ) ^ Int.log 2 |x| / 2 ^ 52 ≤ |x| / 2 ^ 52 := div_le_div_of_nonneg_right this (by norm_num)
        _ = _ := by ring
    refine le_trans ?_ h4
    rw [abs_le]
    constructor <;> nlinarith

/-- The exact result does not depend on the order of the particles (C03), the rounded one does: C119 is about differences like this one. -/
theorem histogram_order_rounded_violated :
    histogramF binary53 (fun _ => .fin (1 / 2 ^ 49)) .ngp [.fin 1, .fin 1, .fin 1] (.fin 0, .fin 8) 4
      (some [.fin (2 ^ 53), .fin 1, .fin 1]) = .ok [.fin (2 ^ 53), .fin 0, .fin 0, .fin 0] ∧
    histogramF binary53 (fun _ => .fin (1 / 2 ^ 49)) .ngp [.fin 1, .fin 1, .fin 1] (.fin 0, .fin 8) 4
      (some [.fin 1, .fin 1, .fin (2 ^ 53)]) = .ok [.fin (2 ^ 53 + 2), .fin 0, .fin 0, .fin 0] := by
  constructor <;> decide +kernel

example : ∃ h : List ℚ, histogramF binary53 (fun _ => .fin (1 / 2 ^ 49)) .spline3 [.fin (1 / 3), .fin (5 / 7), .fin (1 / 2)]
    (.fin 0, .fin 1) 10 (some [.fin (1 / 10), .fin (1 / 3), .fin (-7)]) = .ok (h.map Dbl.fin) ∧ h.length = 10 ∧
    |h.sum - (1 / 10 + (1 / 3 + (-7 + 0)))| ≤ 1 / 10 ^ 11 := by
  obtain ⟨h, h1, h2, h3⟩ := histogram_conserved_rounded binary53 (1 / 2 ^ 52) binary53_accurate (fun _ => .fin (1 / 2 ^ 49)) .spline3
    [(.fin (1 / 3), 1 / 10), (.fin (5 / 7), 1 / 3), (.fin (1 / 2), -7)] (.fin 0, .fin 1) 10 (by norm_num) (by norm_num) (.fin 10)
    (by decide +kernel) (by decide +kernel)
  refine ⟨h, h1, h2, le_trans h3 ?_⟩
  decide +kernel

/-! ### The theorems applied -/

example := histogram_weights_rounded binary53 (1 / 2 ^ 52) binary53_accurate (fun _ => .fin (1 / 2 ^ 49))
  [(.fin (1 / 3), 1 / 10), (.fin (5 / 7), 1 / 3), (.nan, -7)] (.fin 0, .fin 1) 10 (by norm_num) (.fin 10) (by decide +kernel)

end Postpic.Props
