import Verif.Spec.FieldAssign
import Verif.Lemmas.Broadcast
import Verif.Lemmas.FieldIndex
import Verif.Lemmas.Simulation

/-!
# Lemmas about assignments to parts of a field
-/

set_option autoImplicit false
set_option linter.unusedSectionVars false

namespace Postpic.Fields

open Postpic Postpic.Axes Postpic.Spec

/-! ### Positions of slices -/

theorem pick_slice (n : ℕ) (start stop step : Option ℤ) (h : step.getD 1 ≠ 0) :
    (NItem.slice start stop step).pick n =
      .ok (.many ((pyRange (firstLimit n (step.getD 1) start) (secondLimit n (step.getD 1) stop) (step.getD 1)).map Int.toNat)) := by
  have h1 : sliceIndices n start stop step = sliceIndices n start stop (some (step.getD 1)) := by
    cases step <;> rfl
  simp only [NItem.pick, h1, sliceIndices_eq n start stop _ h, bind, Except.bind]
  rfl

theorem firstLimit_pos {n : ℕ} {step : ℤ} (h : 0 < step) (o : Option ℤ) :
    0 ≤ firstLimit n step o ∧ firstLimit n step o ≤ n := by
  cases o with
  | none => simp [firstLimit, h]
  | some v => simp only [firstLimit, if_pos h]; omega

theorem secondLimit_pos {n : ℕ} {step : ℤ} (h : 0 < step) (o : Option ℤ) :
    0 ≤ secondLimit n step o ∧ secondLimit n step o ≤ n := by
  cases o with
  | none => simp [secondLimit, h]
  | some v => simpa only [secondLimit] using firstLimit_pos (n := n) h (some v)

theorem firstLimit_neg {n : ℕ} {step : ℤ} (h : ¬ 0 < step) (o : Option ℤ) :
    -1 ≤ firstLimit n step o ∧ firstLimit n step o ≤ n - 1 := by
  cases o with
  | none => simp [firstLimit, h]
  | some v => simp only [firstLimit, if_neg h]; omega

theorem secondLimit_neg {n : ℕ} {step : ℤ} (h : ¬ 0 < step) (o : Option ℤ) :
    -1 ≤ secondLimit n step o ∧ secondLimit n step o ≤ n - 1 := by
  cases o with
  | none => simp [secondLimit, h]
  | some v => simpa only [secondLimit] using firstLimit_neg (n := n) h (some v)

theorem slicePlace_range {n : ℕ} {step : ℤ} (hs : step ≠ 0) (start stop : Option ℤ) {x : ℤ}
    (h : SlicePlace (firstLimit n step start) (secondLimit n step stop) step x) : 0 ≤ x ∧ x < n := by
  obtain ⟨m, rfl, h⟩ := h
  by_cases hp : 0 < step
  · rw [if_pos hp] at h
    have h1 := firstLimit_pos (n := n) hp start
    have h2 := secondLimit_pos (n := n) hp stop
    have : 0 ≤ (m : ℤ) * step := by positivity
    omega
  · rw [if_neg hp] at h
    have h1 := firstLimit_neg (n := n) hp start
    have h2 := secondLimit_neg (n := n) hp stop
    have : (m : ℤ) * step ≤ 0 := mul_nonpos_of_nonneg_of_nonpos (by positivity) (by omega)
    omega

theorem slice_positions (n : ℕ) (start stop : Option ℤ) (step : ℤ) (h : step ≠ 0) :
    SlicePositions n start stop step ((pyRange (firstLimit n step start) (secondLimit n step stop) step).map Int.toNat) := by
  have hmem : ∀ p : ℕ, p ∈ (pyRange (firstLimit n step start) (secondLimit n step stop) step).map Int.toNat ↔
      SlicePlace (firstLimit n step start) (secondLimit n step stop) step (p : ℤ) := by
    intro p
    rw [List.mem_map]
    constructor
    · rintro ⟨x, hx, rfl⟩
      rw [mem_pyRange h] at hx
      rwa [Int.toNat_of_nonneg (slicePlace_range h start stop hx).1]
    · intro hp
      exact ⟨p, (mem_pyRange h _).2 hp, by simp⟩
  have hpw : ∀ R : ℕ → ℕ → Prop, (∀ x y : ℤ, 0 ≤ x → 0 ≤ y → (if 0 < step then x < y else y < x) → R x.toNat y.toNat) →
      ((pyRange (firstLimit n step start) (secondLimit n step stop) step).map Int.toNat).Pairwise R := by
    intro R hR
    rw [List.pairwise_iff_getElem]
    intro i j hi hj hij
    simp only [List.length_map] at hi hj
    simp only [List.getElem_map]
    have e1 := (pyRange_get i _).1 (List.getElem?_eq_getElem hi)
    have e2 := (pyRange_get j _).1 (List.getElem?_eq_getElem hj)
    have n1 := slicePlace_range h start stop ((mem_pyRange h _).1 (List.getElem_mem hi))
    have n2 := slicePlace_range h start stop ((mem_pyRange h _).1 (List.getElem_mem hj))
    apply hR _ _ n1.1 n2.1
    rw [e1.2, e2.2]
    split_ifs with hp
    · have : (i : ℤ) < j := by exact_mod_cast hij
      nlinarith
    · have : (i : ℤ) < j := by exact_mod_cast hij
      have : step < 0 := by omega
      nlinarith
  unfold SlicePositions
  by_cases hp : 0 < step
  · simp only [if_pos hp]
    refine ⟨hpw _ ?_, ?_⟩
    · intro x y hx hy hxy
      rw [if_pos hp] at hxy
      omega
    · intro p
      rw [hmem]
      have hf : firstLimit n step start = min (n : ℤ) (max (if start.getD 0 < 0 then start.getD 0 + (n : ℤ) else start.getD 0) 0) := by
        cases start with
        | none => simp [firstLimit, hp]
        | some v =>
          simp only [firstLimit, if_pos hp, Option.getD_some]
          omega
      constructor
      · intro hpl
        have hr := slicePlace_range h start stop hpl
        obtain ⟨m, hm, hlt⟩ := hpl
        rw [if_pos hp] at hlt
        have hm0 : 0 ≤ (m : ℤ) * step := by positivity
        have hfl : firstLimit n step start = max (if start.getD 0 < 0 then start.getD 0 + (n : ℤ) else start.getD 0) 0 := by omega
        refine ⟨by omega, by rw [← hfl]; omega, ?_, ?_⟩
        · rw [← hfl, hm]
          exact ⟨m, by ring⟩
        · rintro s rfl
          simp only [secondLimit, firstLimit, if_pos hp] at hlt
          omega
      · rintro ⟨h1, h2, ⟨q, hq⟩, h4⟩
        have hfl : firstLimit n step start = max (if start.getD 0 < 0 then start.getD 0 + (n : ℤ) else start.getD 0) 0 := by omega
        have hq0 : 0 ≤ q := by
          by_contra hneg
          have : step * q < 0 := mul_neg_of_pos_of_neg hp (by omega)
          omega
        refine ⟨q.toNat, ?_, ?_⟩
        · rw [Int.toNat_of_nonneg hq0, hfl]
          linarith [mul_comm q step]
        · rw [if_pos hp]
          cases stop with
          | none => simp only [secondLimit, if_pos hp]; omega
          | some s =>
            have := h4 s rfl
            simp only [secondLimit, firstLimit, if_pos hp]
            omega
  · simp only [if_neg hp]
    refine ⟨hpw _ ?_, ?_⟩
    · intro x y hx hy hxy
      rw [if_neg hp] at hxy
      omega
    · intro p
      rw [hmem]
      have key : ∀ F : ℤ, firstLimit n step start = max (-1) F → F ≤ n - 1 →
          (SlicePlace (firstLimit n step start) (secondLimit n step stop) step (p : ℤ) ↔
            p < n ∧ (p : ℤ) ≤ F ∧ step ∣ p - F ∧ ∀ s, stop = some s → (if s < 0 then s + (n : ℤ) else s) < (p : ℤ)) := by
        intro F hF hFn
        constructor
        · intro hpl
          have hr := slicePlace_range h start stop hpl
          obtain ⟨m, hm, hlt⟩ := hpl
          rw [if_neg hp] at hlt
          have hm0 : (m : ℤ) * step ≤ 0 := mul_nonpos_of_nonneg_of_nonpos (by positivity) (by omega)
          have hfl : firstLimit n step start = F := by omega
          refine ⟨by omega, by omega, ?_, ?_⟩
          · rw [← hfl, hm]
            exact ⟨m, by ring⟩
          · rintro s rfl
            simp only [secondLimit, firstLimit, if_neg hp] at hlt
            omega
        · rintro ⟨h1, h2, ⟨q, hq⟩, h4⟩
          have hfl : firstLimit n step start = F := by omega
          have hq0 : 0 ≤ q := by
            by_contra hneg
            have : 0 < step * q := mul_pos_of_neg_of_neg (by omega) (by omega)
            omega
          refine ⟨q.toNat, ?_, ?_⟩
          · rw [Int.toNat_of_nonneg hq0, hfl]
            linarith [mul_comm q step]
          · rw [if_neg hp]
            cases stop with
            | none => simp only [secondLimit, if_neg hp]; omega
            | some s =>
              have := h4 s rfl
              simp only [secondLimit, firstLimit, if_neg hp]
              omega
      cases start with
      | none => exact key _ (by simp only [firstLimit, if_neg hp]; omega) le_rfl
      | some v => exact key (min (if v < 0 then v + (n : ℤ) else v) (n - 1)) (by simp only [firstLimit, if_neg hp]; omega) (by omega)

/-- Slices with step 1 or -1 of the axis and of the array select the same positions. -/
theorem slice_apply (n : ℕ) (start stop step : Option ℤ) (h : step = none ∨ step = some 1 ∨ step = some (-1)) :
    (NItem.slice start stop step).pick n = .ok (.many (Slice.apply ⟨start, stop, decide (step = some (-1))⟩ (List.range n))) := by
  have hne : step.getD 1 ≠ 0 := by rcases h with rfl | rfl | rfl <;> decide
  rw [pick_slice n start stop step hne]
  congr 2
  by_cases hb : step = some (-1)
  · subst hb
    simp only [decide_true, Slice.apply, if_true, Option.getD_some]
    have cb : ∀ v, clampBwd n v = (firstLimit n (-1) (some v) + 1).toNat := by
      intro v
      simp only [clampBwd, firstLimit]
      split_ifs <;> omega
    have e1 : sliceBwd (List.range n) start stop =
        (((List.range n).take (firstLimit n (-1) start + 1).toNat).drop (secondLimit n (-1) stop + 1).toNat).reverse := by
      have n1 : (firstLimit n (-1) none + 1).toNat = n := by simp [firstLimit]
      have n2 : (secondLimit n (-1) none + 1).toNat = 0 := by simp [secondLimit]
      cases start <;> cases stop <;> simp only [sliceBwd, List.length_range, cb, n1, n2, secondLimit]
      all_goals simp
    rw [e1]
    have f1 := firstLimit_neg (n := n) (step := -1) (by decide) start
    have f2 := secondLimit_neg (n := n) (step := -1) (by decide) stop
    generalize firstLimit n (-1) start = a at *
    generalize secondLimit n (-1) stop = b at *
    have hrl : rangeLen a b (-1) = (a + 1).toNat - (b + 1).toNat := by
      simp only [rangeLen]
      rw [if_neg (by decide)]
      simp
      omega
    apply List.ext_getElem
    · simp only [List.length_map, pyRange, List.length_reverse, List.length_drop, List.length_take, List.length_range, hrl]
      omega
    · intro i h1 h2
      simp only [List.length_map, pyRange, List.length_range, hrl] at h1
      simp only [pyRange, List.getElem_map, List.getElem_range, List.getElem_reverse, List.getElem_drop, List.getElem_take, List.length_drop,
        List.length_take, List.length_range]
      omega
  · have hs : step.getD 1 = 1 := by
      rcases h with rfl | rfl | rfl
      · rfl
      · rfl
      · exact absurd rfl hb
    rw [hs]
    simp only [decide_eq_false hb, Slice.apply, Bool.false_eq_true, if_false]
    have cf : ∀ v, clampFwd n v = (firstLimit n 1 (some v)).toNat := by
      intro v
      simp only [clampFwd, firstLimit]
      split_ifs <;> omega
    have e1 : sliceFwd (List.range n) start stop =
        ((List.range n).take (secondLimit n 1 stop).toNat).drop (firstLimit n 1 start).toNat := by
      have n1 : (firstLimit n 1 none).toNat = 0 := by simp [firstLimit]
      have n2 : (secondLimit n 1 none).toNat = n := by simp [secondLimit]
      cases start <;> cases stop <;> simp only [sliceFwd, List.length_range, cf, n1, n2, secondLimit]
      all_goals simp
    rw [e1]
    have f1 := firstLimit_pos (n := n) (step := 1) (by decide) start
    have f2 := secondLimit_pos (n := n) (step := 1) (by decide) stop
    generalize firstLimit n 1 start = a at *
    generalize secondLimit n 1 stop = b at *
    have hrl : rangeLen a b 1 = b.toNat - a.toNat := by
      simp only [rangeLen]
      rw [if_pos (by decide)]
      simp
      omega
    apply List.ext_getElem
    · simp only [List.length_map, pyRange, List.length_drop, List.length_take, List.length_range, hrl]
      omega
    · intro i h1 h2
      simp only [List.length_map, pyRange, List.length_range, hrl] at h1
      simp only [pyRange, List.getElem_map, List.getElem_range, List.getElem_drop, List.getElem_take]
      omega

/-! ### Selected positions and their numbers -/

/-- No position occurs twice. -/
def _root_.Postpic.Pick.Distinct : Pick → Prop
  | .one _ => True
  | .many l => l.Nodup

theorem inb_cons {n i : ℕ} {s idx : List ℕ} : InBounds (n :: s) (i :: idx) ↔ i < n ∧ InBounds s idx := by
  constructor
  · rintro ⟨h1, h2⟩
    exact ⟨h2 0 i n rfl rfl, by simpa using h1, fun d a b ha hb => h2 (d + 1) a b (by simpa using ha) (by simpa using hb)⟩
  · rintro ⟨h1, h2, h3⟩
    refine ⟨by simpa using h2, ?_⟩
    intro d a b ha hb
    cases d with
    | zero => simp at ha hb; omega
    | succ d => exact h3 d a b (by simpa using ha) (by simpa using hb)

theorem pickIdx_length (ps : List Pick) (j : List ℕ) : (pickIdx ps j).length = ps.length := by
  induction ps generalizing j with
  | nil => rfl
  | cons p ps ih => cases p <;> simp [pickIdx, ih]

theorem unpick_pickIdx : ∀ (ps : List Pick) (j : List ℕ), (∀ p ∈ ps, p.Distinct) → InBounds (pickShape ps) j →
    unpick ps (pickIdx ps j) = some j
  | [], j, _, h => by
    have := h.1
    simp [pickShape] at this
    subst this
    rfl
  | .one k :: ps, j, hd, h => by
    simp only [pickIdx, unpick, if_true]
    exact unpick_pickIdx ps j (fun p hp => hd p (by simp [hp])) h
  | .many l :: ps, [], hd, h => by
    have := h.1
    simp [pickShape] at this
  | .many l :: ps, i :: j, hd, h => by
    have hd1 : l.Nodup := hd (.many l) (by simp)
    obtain ⟨h1, h2⟩ := inb_cons.1 h
    simp only [pickIdx, List.headD_cons, List.tail_cons, unpick]
    have e : l.getD i 0 = l[i] := by simp [List.getD_eq_getElem?_getD, List.getElem?_eq_getElem h1]
    rw [e, if_pos (List.getElem_mem h1), unpick_pickIdx ps j (fun p hp => hd p (by simp [hp])) h2]
    simp [List.Nodup.idxOf_getElem hd1]

theorem pickIdx_unpick : ∀ (ps : List Pick) (idx j : List ℕ), unpick ps idx = some j →
    InBounds (pickShape ps) j ∧ pickIdx ps j = idx
  | [], [], j, h => by
    simp [unpick] at h
    subst h
    exact ⟨⟨rfl, by simp⟩, rfl⟩
  | [], i :: idx, j, h => by simp [unpick] at h
  | .one k :: ps, [], j, h => by simp [unpick] at h
  | .one k :: ps, i :: idx, j, h => by
    simp only [unpick] at h
    split_ifs at h with hk
    obtain ⟨h1, h2⟩ := pickIdx_unpick ps idx j h
    exact ⟨h1, by simp [pickIdx, h2, hk]⟩
  | .many l :: ps, [], j, h => by simp [unpick] at h
  | .many l :: ps, i :: idx, j, h => by
    simp only [unpick] at h
    split_ifs at h with hk
    cases hu : unpick ps idx with
    | none => rw [hu] at h; cases h
    | some j' =>
      rw [hu] at h
      simp only [Option.map_some, Option.some.injEq] at h
      subst h
      obtain ⟨h1, h2⟩ := pickIdx_unpick ps idx j' hu
      have hlt : l.idxOf i < l.length := List.idxOf_lt_length_iff.2 hk
      refine ⟨inb_cons.2 ⟨hlt, h1⟩, ?_⟩
      simp [pickIdx, h2, List.getD_eq_getElem?_getD, List.getElem?_eq_getElem hlt]

/-! ### Broadcasting in assignments -/

theorem surplusOnes_le (k : ℕ) (s : List ℕ) : surplusOnes k s ≤ s.length - k := by
  induction s with
  | nil => simp [surplusOnes]
  | cons n s ih =>
    simp only [surplusOnes, List.length_cons]
    split_ifs <;> omega

theorem surplusOnes_ones (k : ℕ) (s : List ℕ) : s.take (surplusOnes k s) = List.replicate (surplusOnes k s) 1 := by
  induction s with
  | nil => simp [surplusOnes]
  | cons n s ih =>
    simp only [surplusOnes]
    split_ifs with h
    · simp [List.replicate_succ, ih, h.2]
    · simp

theorem surplusOnes_eq (k : ℕ) (s : List ℕ) (h : ∀ i < s.length - k, s[i]? = some 1) : surplusOnes k s = s.length - k := by
  induction s with
  | nil => simp [surplusOnes]
  | cons n s ih =>
    simp only [surplusOnes, List.length_cons]
    by_cases hk : k ≤ s.length
    · have h0 := h 0 (by simp; omega)
      simp only [List.getElem?_cons_zero, Option.some.injEq] at h0
      rw [if_pos ⟨hk, h0⟩, ih (fun i hi => by simpa using h (i + 1) (by simp; omega))]
      omega
    · rw [if_neg (fun hh => hk hh.1)]
      omega

theorem fits_iff (s t : List ℕ) : bshape (s.drop (surplusOnes t.length s)) t = some t ↔ Fits s t := by
  rw [bshape_iff]
  unfold Broadcast alignedLength
  have hle := surplusOnes_le t.length s
  constructor
  · rintro ⟨h1, h2⟩ k n hn
    have hk := (List.getElem?_eq_some_iff.1 hn).1
    rw [List.length_reverse] at hk
    rw [List.getElem?_reverse hk] at hn
    rw [List.length_drop] at h1
    by_cases hb : s.length - 1 - k < surplusOnes t.length s
    · left
      have : (s.take (surplusOnes t.length s))[s.length - 1 - k]? = some n := by rw [List.getElem?_take_of_lt hb, hn]
      rw [surplusOnes_ones, List.getElem?_replicate, if_pos hb] at this
      exact (Option.some.inj this).symm
    · have hkd : (s.drop (surplusOnes t.length s)).reverse[k]? = some n := by
        rw [List.getElem?_reverse (by simp; omega), List.getElem?_drop, List.length_drop]
        rw [← hn]
        congr 1
        omega
      have hkt : k < t.length := by omega
      obtain ⟨u, ht⟩ : ∃ u, t.reverse[k]? = some u := ⟨_, List.getElem?_eq_getElem (by simpa using hkt)⟩
      have := h2 k
      simp only [List.getD_eq_getElem?_getD, hkd, ht, Option.getD_some] at this
      rw [ht]
      rcases this with ⟨h3, _⟩ | ⟨_, h4⟩
      · right
        rw [h3]
      · exact Or.inl h4
  · intro hf
    have hones : ∀ i < s.length - t.length, s[i]? = some 1 := by
      intro i hi
      have := hf (s.length - 1 - i) s[i] (by
        rw [List.getElem?_reverse (by omega), List.getElem?_eq_some_iff]
        exact ⟨by omega, by congr 1; omega⟩)
      rcases this with h | h
      · rw [List.getElem?_eq_getElem (by omega), h]
      · rw [List.getElem?_eq_none (by simp; omega)] at h
        cases h
    rw [surplusOnes_eq _ _ hones]
    refine ⟨by simp; omega, ?_⟩
    intro k
    by_cases hk : k < (s.drop (s.length - t.length)).length
    · simp only [List.length_drop] at hk
      have hkd : (s.drop (s.length - t.length)).reverse[k]? = s.reverse[k]? := by
        rw [List.getElem?_reverse (by simp; omega), List.getElem?_drop, List.length_drop, List.getElem?_reverse (by omega)]
        congr 1
        omega
      obtain ⟨w, hs⟩ : ∃ w, s.reverse[k]? = some w := ⟨_, List.getElem?_eq_getElem (by simp; omega)⟩
      have := hf k _ hs
      simp only [List.getD_eq_getElem?_getD, hkd, hs, Option.getD_some]
      rcases this with h | h
      · exact Or.inr ⟨trivial, h⟩
      · rw [h]
        exact Or.inl ⟨rfl, Or.inl rfl⟩
    · right
      rw [List.getD_eq_getElem?_getD (l := (s.drop _).reverse), List.getElem?_eq_none (by rw [List.length_reverse]; omega)]
      exact ⟨rfl, rfl⟩

theorem broadcasts_eq {s t o j : List ℕ} (hf : Fits s t) (hj : InBounds t j) (h : Broadcasts s o j) :
    List.replicate (surplusOnes t.length s) 0 ++ bindex (s.drop (surplusOnes t.length s)) j = o := by
  obtain ⟨⟨ho1, ho2⟩, h2⟩ := h
  have hle := surplusOnes_le t.length s
  have hbl : s.length - surplusOnes t.length s ≤ t.length := by
    have := ((bshape_iff _ _ _).1 ((fits_iff s t).2 hf)).1
    rw [List.length_drop] at this
    omega
  have hjl := hj.1
  set m := surplusOnes t.length s with hm
  have hbi := bindex_spec (shape := s.drop m) (idx := j) (by simp; omega)
  obtain ⟨b1, b2⟩ := hbi
  rw [List.length_drop] at b1
  apply List.ext_getElem?
  intro i
  by_cases hi : i < m
  · rw [List.getElem?_append_left (by simpa using hi), List.getElem?_replicate, if_pos hi]
    have e1 : s[i]? = some 1 := by
      have : (s.take m)[i]? = some 1 := by rw [hm, surplusOnes_ones, ← hm, List.getElem?_replicate, if_pos hi]
      rwa [List.getElem?_take_of_lt hi] at this
    have e2 : o[i]? = some o[i] := List.getElem?_eq_getElem (by omega)
    have := ho2 i _ 1 e2 e1
    rw [e2]
    congr 1
    omega
  · rw [List.getElem?_append_right (by simpa using hi), List.length_replicate]
    by_cases hi2 : i < o.length
    · have eo : o[i]? = some o[i] := List.getElem?_eq_getElem hi2
      have es : s[i]? = some s[i] := List.getElem?_eq_getElem (by omega)
      have hrev : (bindex (s.drop m) j)[i - m]? = (bindex (s.drop m) j).reverse[s.length - 1 - i]? := by
        rw [List.getElem?_reverse (by omega)]
        congr 1
        omega
      have er : (s.drop m).reverse[s.length - 1 - i]? = some s[i] := by
        rw [List.getElem?_reverse (by simp; omega), List.getElem?_drop, List.length_drop, ← es]
        congr 1
        omega
      have ej : ∃ x, j.reverse[s.length - 1 - i]? = some x := ⟨_, List.getElem?_eq_getElem (by simp; omega)⟩
      obtain ⟨x, hx⟩ := ej
      rw [hrev, b2 _ _ _ er hx, eo]
      congr 1
      by_cases h1 : s[i] = 1
      · rw [if_pos h1]
        have := ho2 i _ _ eo es
        omega
      · rw [if_neg h1]
        have hor : o.reverse[s.length - 1 - i]? = some o[i] := by
          rw [List.getElem?_reverse (by omega), ← eo]
          congr 1
          omega
        have hsr : s.reverse[s.length - 1 - i]? ≠ some 1 := by
          rw [List.getElem?_reverse (by omega)]
          have : s.length - 1 - (s.length - 1 - i) = i := by omega
          rw [this, es]
          simpa using h1
        have := h2 _ _ hor hsr
        rw [hx] at this
        exact Option.some.inj this
    · rw [List.getElem?_eq_none (by omega), List.getElem?_eq_none (by omega)]

/-! ### Indices of one dimension -/

section
variable {K V : Type} [_root_.Field K] [LinearOrder K] [IsStrictOrderedRing K]

theorem pick_distinct {n : ℕ} {nk : NItem} {p : Pick} (h : nk.pick n = .ok p) : p.Distinct := by
  cases nk with
  | int i =>
    simp only [NItem.pick] at h
    split at h
    · cases h; trivial
    · cases h
  | slice a b step =>
    by_cases hs : step.getD 1 = 0
    · simp only [NItem.pick, sliceIndices, hs, if_true, bind, Except.bind] at h
      cases h
    · rw [pick_slice n a b step hs] at h
      cases h
      have := slice_positions n a b _ hs
      unfold SlicePositions at this
      split_ifs at this with hp
      · exact this.1.imp fun h => h.ne
      · exact this.1.imp fun h => h.ne'

theorem itemAxis_pick {spl : Splines K} {ax : Axis K} {nk : NItem} {o : Option (Axis K)} {p : Pick} (h : itemAxis spl ax nk = .ok (o, p)) :
    nk.pick ax.len = .ok p := by
  cases nk with
  | int i =>
    simp only [itemAxis, pickAxis] at h
    simp only [NItem.pick]
    cases hp : pyIdx ax.len i with
    | none => rw [hp] at h; cases h
    | some k => rw [hp] at h; cases h; rfl
  | slice a b step =>
    simp only [itemAxis] at h
    split_ifs at h with hs
    rw [slice_apply _ _ _ _ hs]
    simp only [pickAxis] at h
    obtain ⟨ax', _, h⟩ := bind_ok h
    cases h
    rfl

theorem pyIdx_ok {n : ℕ} {i : ℤ} (h1 : -(n : ℤ) ≤ i) (h2 : i < n) : ∃ k, pyIdx n i = some k ∧ NumberMeans n i k := by
  unfold pyIdx NumberMeans
  by_cases h0 : 0 ≤ i
  · rw [if_pos h0, if_pos h2]
    exact ⟨_, rfl, by omega, by rw [if_pos h0]; omega⟩
  · rw [if_neg h0, if_pos h1]
    exact ⟨_, rfl, by omega, by rw [if_neg h0]; omega⟩

theorem sliceFwd_single {n : ℕ} {i : ℤ} {k : ℕ} (h : NumberMeans n i k) (h1 : i ≠ -1) :
    sliceFwd (List.range n) (some i) (some (i + 1)) = [k] := by
  obtain ⟨hk, he⟩ := h
  have e1 : clampFwd n i = k := by
    unfold clampFwd
    split_ifs at he ⊢ <;> omega
  have e2 : clampFwd n (i + 1) = k + 1 := by
    unfold clampFwd
    split_ifs at he ⊢ <;> omega
  simp only [sliceFwd, List.length_range, e1, e2]
  apply List.ext_getElem
  · simp
    omega
  · intro j h1 h2
    simp at h2
    simp [h2]

theorem range_sliceFwd {n s t : ℕ} (h4 : t ≤ n) (h3 : s < t) :
    sliceFwd (List.range n) (some (s : ℤ)) (some (t : ℤ)) = (List.range t).drop s := by
  unfold sliceFwd clampFwd
  simp only [List.length_range]
  rw [if_neg (by omega), if_neg (by omega), Int.toNat_natCast, Int.toNat_natCast, min_eq_left h4, min_eq_left (by omega), List.take_range,
    min_eq_left h4]

theorem pick_forward {n : ℕ} (a b step : Option ℤ) (h : step = none ∨ step = some 1) :
    (NItem.slice a b step).pick n = .ok (.many (sliceFwd (List.range n) a b)) := by
  rw [slice_apply n a b step (by rcases h with h | h <;> simp [h])]
  have : decide (step = some (-1)) = false := by rcases h with rfl | rfl <;> decide
  rw [this]
  rfl

theorem range_item {ax : Axis K} (hv : ValidAxis ax.gridNode ax.grid ax.extent) {a b : Bound K} (hk : RangeOk ax a b) :
    ∃ s t : ℕ, ax.extentToSlice a.value b.value = .ok ⟨some (s : ℤ), some (t : ℤ), false⟩ ∧ s < t ∧ t ≤ ax.len ∧
      RangeMeans ax (a.value.getD ax.extent.1) (b.value.getD ax.extent.2) ((List.range t).drop s) := by
  obtain ⟨s, t, h1, h2, h3, h4⟩ := range_numbers hv hk
  refine ⟨s, t, h1, h3, h4, ?_, ?_⟩
  · exact (List.pairwise_lt_range).sublist (List.drop_sublist _ _)
  · intro p
    have hmem : p ∈ (List.range t).drop s ↔ s ≤ p ∧ p < t := by
      rw [List.mem_iff_getElem?]
      constructor
      · rintro ⟨i, hi⟩
        rw [List.getElem?_drop] at hi
        have := (List.getElem?_eq_some_iff.1 hi).1
        rw [List.length_range] at this
        rw [List.getElem?_range this] at hi
        have := Option.some.inj hi
        omega
      · rintro ⟨h5, h6⟩
        exact ⟨p - s, by rw [List.getElem?_drop, List.getElem?_range (by omega)]; congr 1; omega⟩
    rw [hmem]
    constructor
    · intro h
      have : p < ax.grid.length := lt_of_lt_of_le h.2 h4
      exact ⟨_, List.getElem?_eq_getElem this, (h2 p _ (List.getElem?_eq_getElem this)).1 h⟩
    · rintro ⟨x, hx, h⟩
      exact (h2 p x hx).2 h

/-- The positions of one index. -/
theorem item_pick {ax : Axis K} (hv : ValidAxis ax.gridNode ax.grid ax.extent) (hpos : 0 < ax.len) {item : Item K} (h : ItemOk ax item) :
    ∃ nk p, normItem ax item = .ok nk ∧ nk.pick ax.len = .ok p ∧ ItemMeans ax item p := by
  have hslice : ∀ (kd : Bool) (a b : Bound K) (step : Option ℤ), SliceOk ax a b step →
      ∃ nk l, normIndex ax kd (.slice a b step) = .ok nk ∧ nk.pick ax.len = .ok (.many l) ∧ SliceMeans ax a b step l := by
    intro kd a b step hs
    unfold SliceOk at hs
    unfold SliceMeans
    simp only [normIndex]
    split_ifs at hs ⊢ with hc hst
    · simp [hs.1] at hst
    · obtain ⟨s, t, h1, h2, h3, h4⟩ := range_item hv hs.2
      refine ⟨_, _, by rw [h1]; rfl, ?_, h4⟩
      change (NItem.slice (some (s : ℤ)) (some (t : ℤ)) none).pick ax.len = _
      rw [pick_forward _ _ _ (Or.inl rfl), range_sliceFwd h3 h2]
    · have hne : step.getD 1 ≠ 0 := by
        cases step with
        | none => decide
        | some x => simpa using hs
      exact ⟨_, _, rfl, pick_slice _ _ _ _ hne, slice_positions _ _ _ _ hne⟩
  have hcoord : ∀ v, (min ax.extent.1 ax.extent.2 ≤ v ∧ v ≤ max ax.extent.1 ax.extent.2) →
      ∃ k : ℕ, ax.findNearestIndex v = .ok k ∧ NearestMeans ax v k ∧ k < ax.len ∧ ax.insideDomain v = true := by
    intro v hin
    have hne : ax.grid ≠ [] := List.length_pos_iff.1 hpos
    obtain ⟨i, g, h1, h2, h3⟩ := nearest_correct hv hne v
    exact ⟨i, h1, ⟨g, h2, h3⟩, (List.getElem?_eq_some_iff.1 h2).1, by unfold Axis.insideDomain; simpa using hin⟩
  have hsingle : ∀ (i : ℤ) (k : ℕ), NumberMeans ax.len i k → i ≠ -1 → (NItem.slice (some i) (some (i + 1)) none).pick ax.len = .ok (.many [k]) := by
    intro i k hk h1
    rw [pick_forward _ _ _ (Or.inl rfl), sliceFwd_single hk h1]
  match item, h with
  | .plain (.int i), h =>
    obtain ⟨k, hk, hm⟩ := pyIdx_ok h.1 h.2
    exact ⟨.int i, .one k, rfl, by simp only [NItem.pick, hk], hm⟩
  | .keepDim (.int i), h =>
    obtain ⟨k, hk, hm⟩ := pyIdx_ok h.1 h.2.1
    exact ⟨_, .many [k], rfl, hsingle i k hm h.2.2, k, rfl, hm⟩
  | .plain (.coord v), h =>
    obtain ⟨k, h1, h2, h3, h4⟩ := hcoord v h
    refine ⟨.int k, .one k, ?_, by simp only [NItem.pick, pyIdx_nat h3], h2⟩
    simp only [normItem, normIndex, h4, h1, Bool.not_true, Bool.false_eq_true, if_false, bind, Except.bind]
    rfl
  | .keepDim (.coord v), h =>
    obtain ⟨k, h1, h2, h3, h4⟩ := hcoord v h
    refine ⟨.slice (some (k : ℤ)) (some ((k : ℤ) + 1)) none, .many [k], ?_, hsingle k k ⟨h3, by simp⟩ (by omega), k, rfl, h2⟩
    simp only [normItem, normIndex, h4, h1, Bool.not_true, Bool.false_eq_true, if_false, bind, Except.bind]
    rfl
  | .plain (.slice a b step), h =>
    obtain ⟨nk, l, h1, h2, h3⟩ := hslice false a b step h
    exact ⟨nk, .many l, h1, h2, h3⟩
  | .keepDim (.slice a b step), h =>
    obtain ⟨nk, l, h1, h2, h3⟩ := hslice true a b step h
    exact ⟨nk, .many l, h1, h2, h3⟩

/-- The positions of all indices. -/
theorem items_pick : ∀ (axes : List (Axis K)) (key : List (Item K)), axes.length = key.length →
    (∀ ax ∈ axes, ValidAxis ax.gridNode ax.grid ax.extent ∧ 0 < ax.len) →
    (∀ (d : ℕ) (ax : Axis K) (k : Item K), axes[d]? = some ax → key[d]? = some k → ItemOk ax k) →
    ∃ (nks : List NItem) (picks : List Pick),
      (axes.zip key).mapM (fun p => normItem p.1 p.2) = .ok nks ∧
      ((axes.map Axis.len).zip nks).mapM (fun p => p.2.pick p.1) = .ok picks ∧ picks.length = axes.length ∧
      (∀ (d : ℕ) (ax : Axis K) (k : Item K) (p : Pick), axes[d]? = some ax → key[d]? = some k → picks[d]? = some p → ItemMeans ax k p)
  | [], [], _, _, _ => ⟨[], [], rfl, rfl, rfl, by simp⟩
  | ax :: axes, k :: key, hl, hv, hk => by
    obtain ⟨nk, p, g1, g2, g3⟩ := item_pick (hv ax (by simp)).1 (hv ax (by simp)).2 (hk 0 ax k rfl rfl)
    obtain ⟨nks, picks, h1, h2, h3, h4⟩ := items_pick axes key (by simpa using hl)
      (fun a ha => hv a (by simp [ha])) fun d a k' ha hk' => hk (d + 1) a k' ha hk'
    refine ⟨nk :: nks, p :: picks, ?_, ?_, by simp [h3], ?_⟩
    · rw [List.zip_cons_cons, List.mapM_cons, g1, h1]
      rfl
    · rw [List.map_cons, List.zip_cons_cons, List.mapM_cons, g2, h2]
      rfl
    · intro d a k' s ha hk' hs
      cases d with
      | zero =>
        simp only [List.getElem?_cons_zero, Option.some.injEq] at ha hk' hs
        subst ha hk' hs
        exact g3
      | succ d => exact h4 d a k' s ha hk' hs

theorem picks_distinct : ∀ (l : List (ℕ × NItem)) (picks : List Pick), l.mapM (fun p => p.2.pick p.1) = .ok picks → ∀ p ∈ picks, p.Distinct
  | [], picks, h, p, hp => by
    cases h
    simp at hp
  | q :: l, picks, h, p, hp => by
    rw [List.mapM_cons] at h
    obtain ⟨x, hx, h⟩ := bind_ok h
    obtain ⟨xs, hxs, h⟩ := bind_ok h
    cases h
    rcases List.mem_cons.1 hp with rfl | hp
    · exact pick_distinct hx
    · exact picks_distinct l xs hxs p hp

/-- The positions which are selected by `field[key]` and by `field[key] = ...` are the same ones. -/
theorem axes_picks (spl : Splines K) : ∀ (axes : List (Axis K)) (nks : List NItem) (r : List (Option (Axis K) × Pick)),
    (axes.zip nks).mapM (fun p => itemAxis spl p.1 p.2) = .ok r →
    ((axes.map Axis.len).zip nks).mapM (fun p => p.2.pick p.1) = .ok (r.map (·.2))
  | [], nks, r, h => by
    cases h
    simp
    rfl
  | ax :: axes, [], r, h => by
    cases h
    simp
    rfl
  | ax :: axes, nk :: nks, r, h => by
    rw [List.zip_cons_cons, List.mapM_cons] at h
    obtain ⟨⟨o, p⟩, hx, h⟩ := bind_ok h
    obtain ⟨xs, hxs, h⟩ := bind_ok h
    cases h
    rw [List.map_cons, List.zip_cons_cons, List.mapM_cons, itemAxis_pick hx, axes_picks spl axes nks xs hxs]
    rfl

/-- What an assignment to known positions does. -/
theorem assign_eq {f : Field K V} (hf : f.Sound) (key : List (Item K)) (hlen : key.length = f.shape.length) {nks : List NItem}
    {picks : List Pick} (h1 : (f.axes.zip key).mapM (fun p => normItem p.1 p.2) = .ok nks)
    (h2 : ((f.axes.map Axis.len).zip nks).mapM (fun p => p.2.pick p.1) = .ok picks) (other : Arr V) :
    (Fits other.shape (pickShape picks) → ∃ m : Arr V, f.assign key other = .ok { f with matrix := m } ∧ m.shape = f.shape ∧
      (∀ j o, InBounds (pickShape picks) j → Broadcasts other.shape o j → m.at' (pickIdx picks j) = other.at' o) ∧
      ∀ idx, (∀ j, InBounds (pickShape picks) j → pickIdx picks j ≠ idx) → m.at' idx = f.matrix.at' idx) ∧
    (¬ Fits other.shape (pickShape picks) → f.assign key other = .error .valueError) := by
  have hdist := picks_distinct _ _ h2
  rw [hf.ok.lengths] at h2
  have hd : ¬ (key.length : ℤ) ≠ f.dims := by
    rw [dims_sound hf, hlen]
    simp
  constructor
  · intro hfit
    refine ⟨⟨f.shape, fun idx => match unpick picks idx with
      | some j => (Arr.dropOnes other (surplusOnes (pickShape picks).length other.shape)).at'
        (bindex (Arr.dropOnes other (surplusOnes (pickShape picks).length other.shape)).shape j)
      | none => f.matrix.at' idx⟩, ?_, rfl, ?_, ?_⟩
    · unfold Field.assign
      rw [if_neg hd]
      simp only [h1, h2, bind, Except.bind, pure, Except.pure]
      have heq : bshape (Arr.dropOnes other (surplusOnes (pickShape picks).length other.shape)).shape (pickShape picks) =
          some (pickShape picks) := (fits_iff _ _).2 hfit
      rw [if_neg (not_not.2 heq)]
      rfl
    · intro j o hj ho
      simp only [unpick_pickIdx picks j hdist hj]
      exact congrArg other.at' (broadcasts_eq hfit hj ho)
    · intro idx hidx
      cases hu : unpick picks idx with
      | none => simp only [hu]
      | some j =>
        obtain ⟨g1, g2⟩ := pickIdx_unpick _ _ _ hu
        exact absurd g2 (hidx j g1)
  · intro hfit
    unfold Field.assign
    rw [if_neg hd]
    simp only [h1, h2, bind, Except.bind]
    have hne : bshape (Arr.dropOnes other (surplusOnes (pickShape picks).length other.shape)).shape (pickShape picks) ≠
        some (pickShape picks) := fun hh => hfit ((fits_iff _ _).1 hh)
    rw [if_pos hne]
    rfl

/-- `KeepDim` and slices written as indices of `Model/Field.lean`. -/
theorem item_key (spl : Splines K) {ax : Axis K} (hv : ValidAxis ax.gridNode ax.grid ax.extent) (hpos : 0 < ax.len) {item : Item K}
    (h : GetOk ax item) : ∃ (nk : NItem) (key : Key K) (nk' : NKey), normItem ax item = .ok nk ∧ normKey ax key = .ok nk' ∧
      itemAxis spl ax nk = pickAxis spl ax nk' ∧ KeyOk ax key := by
  have hslice : ∀ (kd : Bool) (a b : Bound K) (step : Option ℤ), GetOk ax (.plain (.slice a b step)) →
      ∃ (nk : NItem) (key : Key K) (nk' : NKey), normIndex ax kd (.slice a b step) = .ok nk ∧ normKey ax key = .ok nk' ∧
      itemAxis spl ax nk = pickAxis spl ax nk' ∧ KeyOk ax key := by
    intro kd a b step hs
    simp only [GetOk] at hs
    simp only [normIndex]
    split_ifs at hs ⊢ with hc hst
    · simp [hs.1] at hst
    · obtain ⟨s, t, h1, h2, h3, h4⟩ := range_item hv hs.2
      refine ⟨_, .range a.value b.value, _, by rw [h1]; rfl, by simp only [normKey, h1, bind, Except.bind]; rfl, ?_, hs.2⟩
      simp [itemAxis]
    · refine ⟨_, .slice ⟨a.int, b.int, false⟩, _, rfl, rfl, ?_, hs.2⟩
      rcases hs.1 with rfl | rfl <;> simp [itemAxis]
  have hcoord : ∀ v, (min ax.extent.1 ax.extent.2 ≤ v ∧ v ≤ max ax.extent.1 ax.extent.2) →
      ∃ k : ℕ, ax.findNearestIndex v = .ok k ∧ k < ax.len ∧ ax.insideDomain v = true := by
    intro v hin
    have hne : ax.grid ≠ [] := List.length_pos_iff.1 hpos
    obtain ⟨i, g, h1, h2, h3⟩ := nearest_correct hv hne v
    exact ⟨i, h1, (List.getElem?_eq_some_iff.1 h2).1, by unfold Axis.insideDomain; simpa using hin⟩
  have hkeep : ∀ k : ℕ, k < ax.len → KeyOk ax (.slice ⟨some (k : ℤ), some ((k : ℤ) + 1), false⟩) := by
    intro k hk
    refine ⟨rfl, ?_, ?_, ?_⟩
    · rintro i ⟨⟩
      omega
    · intro h0
      simp only [Option.some.injEq] at h0
      omega
    · rw [sliceFwd_single (k := k) ⟨hk, by simp⟩ (by omega)]
      simp
  match item, h with
  | .plain (.int i), h => exact ⟨_, .int i, _, rfl, rfl, rfl, h⟩
  | .keepDim (.int i), h =>
    obtain ⟨k, rfl⟩ := Int.eq_ofNat_of_zero_le h.1
    refine ⟨_, .slice ⟨some (k : ℤ), some ((k : ℤ) + 1), false⟩, _, rfl, rfl, ?_, hkeep k (by exact_mod_cast h.2)⟩
    simp [keepInt, itemAxis]
  | .plain (.coord v), h =>
    obtain ⟨k, h1, h3, h4⟩ := hcoord v h
    refine ⟨.int k, .coord v, .int k, ?_, ?_, rfl, h⟩
    · simp only [normItem, normIndex, h4, h1, Bool.not_true, Bool.false_eq_true, if_false, bind, Except.bind]
      rfl
    · simp only [normKey, h4, h1, Bool.not_true, Bool.false_eq_true, if_false, bind, Except.bind]
      rfl
  | .keepDim (.coord v), h =>
    obtain ⟨k, h1, h3, h4⟩ := hcoord v h
    refine ⟨.slice (some (k : ℤ)) (some ((k : ℤ) + 1)) none, .slice ⟨some (k : ℤ), some ((k : ℤ) + 1), false⟩, _, ?_, rfl, ?_, hkeep k h3⟩
    · simp only [normItem, normIndex, h4, h1, Bool.not_true, Bool.false_eq_true, if_false, bind, Except.bind]
      rfl
    · simp [itemAxis]
  | .plain (.slice a b step), h => exact hslice false a b step h
  | .keepDim (.slice a b step), h => exact hslice true a b step h

theorem items_keys (spl : Splines K) : ∀ (axes : List (Axis K)) (items : List (Item K)), axes.length = items.length →
    (∀ ax ∈ axes, ValidAxis ax.gridNode ax.grid ax.extent ∧ 0 < ax.len) →
    (∀ (d : ℕ) (ax : Axis K) (k : Item K), axes[d]? = some ax → items[d]? = some k → GetOk ax k) →
    ∃ (nks : List NItem) (keys : List (Key K)) (nks' : List NKey), keys.length = items.length ∧
      (axes.zip items).mapM (fun p => normItem p.1 p.2) = .ok nks ∧ (axes.zip keys).mapM (fun p => normKey p.1 p.2) = .ok nks' ∧
      (axes.zip nks).mapM (fun p => itemAxis spl p.1 p.2) = (axes.zip nks').mapM (fun p => pickAxis spl p.1 p.2) ∧
      (∀ (d : ℕ) (ax : Axis K) (k : Key K), axes[d]? = some ax → keys[d]? = some k → KeyOk ax k)
  | [], [], _, _, _ => ⟨[], [], [], rfl, rfl, rfl, rfl, by simp⟩
  | ax :: axes, k :: key, hl, hv, hk => by
    obtain ⟨nk, key', nk', g1, g2, g3, g4⟩ := item_key spl (hv ax (by simp)).1 (hv ax (by simp)).2 (hk 0 ax k rfl rfl)
    obtain ⟨nks, keys, nks', h0, h1, h2, h3, h4⟩ := items_keys spl axes key (by simpa using hl)
      (fun a ha => hv a (by simp [ha])) fun d a k' ha hk' => hk (d + 1) a k' ha hk'
    refine ⟨nk :: nks, key' :: keys, nk' :: nks', by simp [h0], ?_, ?_, ?_, ?_⟩
    · rw [List.zip_cons_cons, List.mapM_cons, g1, h1]
      rfl
    · rw [List.zip_cons_cons, List.mapM_cons, g2, h2]
      rfl
    · rw [List.zip_cons_cons, List.mapM_cons, List.zip_cons_cons, List.mapM_cons, g3, h3]
    · intro d a k' ha hk'
      cases d with
      | zero =>
        simp only [List.getElem?_cons_zero, Option.some.injEq] at ha hk'
        subst ha hk'
        exact g4
      | succ d => exact h4 d a k' ha hk'

theorem getOk_itemOk {ax : Axis K} {item : Item K} (h : GetOk ax item) : ItemOk ax item := by
  match item, h with
  | .plain (.int i), h => exact h
  | .keepDim (.int i), h => exact ⟨by have := h.1; omega, h.2, by have := h.1; omega⟩
  | .plain (.coord v), h => exact h
  | .keepDim (.coord v), h => exact h
  | .plain (.slice a b step), h | .keepDim (.slice a b step), h =>
    simp only [GetOk] at h
    simp only [ItemOk, SliceOk]
    split_ifs at h ⊢ with hc
    · exact h
    · rcases h.1 with rfl | rfl <;> simp

/-- Two steps for every element, of which one fails for some element. -/
theorem two_mapM {α β γ : Type} (g : α → Res β) (p : α → β → Res γ) (e : Err) : ∀ (l : List α),
    (∀ x ∈ l, (∃ y z, g x = .ok y ∧ p x y = .ok z) ∨ g x = .error e ∨ ∃ y, g x = .ok y ∧ p x y = .error e) →
    (∃ x ∈ l, g x = .error e ∨ ∃ y, g x = .ok y ∧ p x y = .error e) →
    l.mapM g = .error e ∨ ∃ ys, l.mapM g = .ok ys ∧ (l.zip ys).mapM (fun q => p q.1 q.2) = .error e
  | [], _, h => by simp at h
  | x :: l, hall, hex => by
    have hl : (∀ x ∈ l, (∃ y z, g x = .ok y ∧ p x y = .ok z) ∨ g x = .error e ∨ ∃ y, g x = .ok y ∧ p x y = .error e) :=
      fun z hz => hall z (by simp [hz])
    by_cases hrest : ∃ x ∈ l, g x = .error e ∨ ∃ y, g x = .ok y ∧ p x y = .error e
    · have ih := two_mapM g p e l hl hrest
      rcases hall x (by simp) with ⟨y, z, h1, h2⟩ | h1 | ⟨y, h1, h2⟩
      · rcases ih with h3 | ⟨ys, h3, h4⟩
        · left
          rw [List.mapM_cons, h1, h3]
          rfl
        · right
          refine ⟨y :: ys, by rw [List.mapM_cons, h1, h3]; rfl, ?_⟩
          rw [List.zip_cons_cons, List.mapM_cons]
          simp only [h2, h4, bind, Except.bind]
      · left
        rw [List.mapM_cons, h1]
        rfl
      · rcases ih with h3 | ⟨ys, h3, h4⟩
        · left
          rw [List.mapM_cons, h1, h3]
          rfl
        · right
          refine ⟨y :: ys, by rw [List.mapM_cons, h1, h3]; rfl, ?_⟩
          rw [List.zip_cons_cons, List.mapM_cons]
          simp only [h2, bind, Except.bind]
    · have hok : ∀ l : List α, (∀ x ∈ l, ∃ y, g x = .ok y) → ∃ ys, l.mapM g = .ok ys := by
        intro l
        induction l with
        | nil => intro _; exact ⟨[], rfl⟩
        | cons a l ih =>
          intro h
          obtain ⟨y, hy⟩ := h a (by simp)
          obtain ⟨ys, hys⟩ := ih fun z hz => h z (by simp [hz])
          exact ⟨y :: ys, by rw [List.mapM_cons, hy, hys]; rfl⟩
      obtain ⟨ys, hys⟩ := hok l fun z hz => by
        rcases hl z hz with ⟨y, _, h1, _⟩ | h | h
        · exact ⟨y, h1⟩
        · exact absurd ⟨z, hz, .inl h⟩ hrest
        · exact absurd ⟨z, hz, .inr h⟩ hrest
      obtain ⟨z, hz, hb⟩ := hex
      rcases List.mem_cons.1 hz with rfl | hz
      · rcases hb with h1 | ⟨y, h1, h2⟩
        · left
          rw [List.mapM_cons, h1]
          rfl
        · right
          refine ⟨y :: ys, by rw [List.mapM_cons, h1, hys]; rfl, ?_⟩
          rw [List.zip_cons_cons, List.mapM_cons]
          simp only [h2, bind, Except.bind]
      · exact absurd ⟨z, hz, hb⟩ hrest

/-- A refused index fails when it is normalised, or selects nothing. -/
theorem item_refused (spl : Splines K) {ax : Axis K} {item : Item K} (h : ItemRefused ax item) :
    normItem ax item = .error .indexError ∨
      ∃ nk, normItem ax item = .ok nk ∧ nk.pick ax.len = .error .indexError ∧ itemAxis spl ax nk = .error .indexError := by
  have hslice : ∀ kd a b step, (a.isCoord || b.isCoord) = true ∧ step ≠ none →
      normIndex ax kd (.slice a b step) = .error .indexError := by
    intro kd a b step h
    simp only [normIndex]
    rw [if_pos h.1, if_pos (Option.isSome_iff_ne_none.2 h.2)]
  have hcoord : ∀ kd v, v < min ax.extent.1 ax.extent.2 ∨ max ax.extent.1 ax.extent.2 < v →
      normIndex ax kd (.coord v) = .error .indexError := by
    intro kd v h
    have : ax.insideDomain v = false := by
      unfold Axis.insideDomain
      rcases h with h | h
      · have h' := not_le.2 h
        simp only [min_le_iff] at h'
        simp [h']
      · have h' := not_le.2 h
        simp only [le_max_iff] at h'
        simp [h']
    simp only [normIndex, this, Bool.not_false, if_true]
  match item, h with
  | .plain (.int i), h =>
    have : pyIdx ax.len i = none := by
      unfold pyIdx
      rcases h with h | h
      · rw [if_neg (by omega), if_neg (by omega)]
      · rw [if_pos (by omega), if_neg (by omega)]
    refine .inr ⟨.int i, rfl, ?_, ?_⟩
    · simp only [NItem.pick, this]
    · simp only [itemAxis, pickAxis, this]
  | .plain (.coord v), h => exact .inl (hcoord false v h)
  | .keepDim (.coord v), h => exact .inl (hcoord true v h)
  | .plain (.slice a b step), h => exact .inl (hslice false a b step h)
  | .keepDim (.slice a b step), h => exact .inl (hslice true a b step h)

end

end Postpic.Fields
