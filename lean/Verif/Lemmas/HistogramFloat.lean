import Verif.Spec.HistogramFloat
import Mathlib.Tactic.Linarith
import Mathlib.Tactic.Ring
import Mathlib.Tactic.NormNum

/-!
# Lemmas: particle deposition with floating point numbers
-/

set_option autoImplicit false
set_option linter.unusedSectionVars false

namespace Postpic.Histogram

open Postpic Postpic.Spec

section
variable {K : Type} [Field K] [LinearOrder K] [IsStrictOrderedRing K] [FloorRing K] {rnd : K → Dbl K}

/-! ### The loop -/

theorem addAll_ok {ι : Type} [DecidableEq ι] {inb : ι → Bool} {l : List (ι × Dbl K)} (h : ∀ c ∈ l, inb c.1 = true) (m : ι → Dbl K) :
    ∃ m', l.foldlM (addAtF rnd inb) m = .ok m' := by
  induction l generalizing m with
  | nil => exact ⟨m, rfl⟩
  | cons c l ih =>
    obtain ⟨m', hm⟩ := ih (fun c hc => h c (by simp [hc])) (Function.update m c.1 (Dbl.add rnd (m c.1) c.2))
    refine ⟨m', ?_⟩
    rw [List.foldlM_cons]
    unfold addAtF
    rw [if_pos (h c (by simp))]
    exact hm

theorem loopF_from {ι α : Type} [DecidableEq ι] {inb : ι → Bool} {act : α → Res (List (ι × Dbl K))} {ps : List α}
    (h : ∀ p ∈ ps, ∃ l, act p = .ok l ∧ ∀ c ∈ l, inb c.1 = true) (m : ι → Dbl K) :
    ∃ m', ps.foldlM (fun m p => do (← act p).foldlM (addAtF rnd inb) m) m = .ok m' := by
  induction ps generalizing m with
  | nil => exact ⟨m, rfl⟩
  | cons p ps ih =>
    obtain ⟨l, h1, h2⟩ := h p (by simp)
    obtain ⟨m1, h3⟩ := addAll_ok (rnd := rnd) h2 m
    obtain ⟨m2, h4⟩ := ih (fun p hp => h p (by simp [hp])) m1
    refine ⟨m2, ?_⟩
    rw [List.foldlM_cons, h1]
    show (l.foldlM (addAtF rnd inb) m >>= _) = _
    rw [h3]
    exact h4

theorem loopF_ok {ι α : Type} [DecidableEq ι] {inb : ι → Bool} {act : α → Res (List (ι × Dbl K))} {ps : List α}
    (h : ∀ p ∈ ps, ∃ l, act p = .ok l ∧ ∀ c ∈ l, inb c.1 = true) : ∃ m, loopF rnd inb act ps = .ok m :=
  loopF_from h _

/-- The loop over numbered positions is a loop over particles. -/
theorem loopF_particles {ι α β : Type} [DecidableEq ι] (inb : ι → Bool) (act : α × ℕ → Res (List (ι × Dbl K)))
    (act' : β → Res (List (ι × Dbl K))) (pos : β → α) (ps : List β)
    (h : ∀ i p, ps[i]? = some p → act (pos p, i) = act' p) :
    loopF rnd inb act (ps.map pos).zipIdx = loopF rnd inb act' ps := by
  unfold loopF
  suffices H : ∀ (k : ℕ) (m : ι → Dbl K), (∀ i p, ps[i]? = some p → act (pos p, k + i) = act' p) →
      ((ps.map pos).zipIdx k).foldlM (fun m p => do (← act p).foldlM (addAtF rnd inb) m) m =
        ps.foldlM (fun m p => do (← act' p).foldlM (addAtF rnd inb) m) m from
    H 0 _ (by simpa using h)
  clear h
  induction ps with
  | nil => intro k m _; rfl
  | cons p ps ih =>
    intro k m h
    rw [List.map_cons, List.zipIdx_cons, List.foldlM_cons, List.foldlM_cons]
    have h0 := h 0 p rfl
    rw [Nat.add_zero] at h0
    rw [h0]
    cases hl : act' p with
    | error e => rfl
    | ok l =>
      show ((l.foldlM (addAtF rnd inb) m) >>= _) = ((l.foldlM (addAtF rnd inb) m) >>= _)
      cases l.foldlM (addAtF rnd inb) m with
      | error e => rfl
      | ok m' =>
        refine ih (k + 1) m' fun i q hq => ?_
        have := h (i + 1) q (by simpa using hq)
        rwa [show k + 1 + i = k + (i + 1) by omega]

/-- Particles which write nothing may be left out. -/
theorem loopF_filter {ι β : Type} [DecidableEq ι] (inb : ι → Bool) (act : β → Res (List (ι × Dbl K))) (ps : List β) (q : β → Bool)
    (h : ∀ p ∈ ps, q p = false → act p = .ok []) : loopF rnd inb act (ps.filter q) = loopF rnd inb act ps := by
  unfold loopF
  generalize (fun _ => Dbl.fin 0 : ι → Dbl K) = m
  induction ps generalizing m with
  | nil => rfl
  | cons p ps ih =>
    rw [List.filter_cons, List.foldlM_cons]
    cases hq : q p with
    | false =>
      rw [if_neg (by simp), h p (by simp) hq, ih fun p hp => h p (by simp [hp])]
      rfl
    | true =>
      rw [if_pos rfl, List.foldlM_cons]
      congr 1
      funext m
      exact ih (fun p hp => h p (by simp [hp])) m

/-! ### Indices -/

theorem wtsF_length (s : Shape) (x : Dbl K) : (wtsF rnd s x).length = match s with
    | .ngp => 1 | .tophat => 2 | .triangle => 3 | .spline3 => 4 := by
  cases s <;> rfl

theorem mem_cellsF {s : Shape} {x : Dbl K} {c : ℤ × Dbl K} (h : c ∈ cellsF rnd s x) :
    ∃ k < (wtsF rnd s x).length, c.1 = firstCellF rnd s x + (k : ℤ) := by
  unfold cellsF at h
  obtain ⟨vk, hv, rfl⟩ := List.mem_map.1 h
  have := (List.mem_zipIdx hv)
  exact ⟨vk.2, by omega, rfl⟩

theorem truncF_of_nonneg {x : K} (h : 0 ≤ x) : trunc x = ⌊x⌋ := by unfold trunc; rw [if_pos h]

theorem cInt_inside {x : K} {n : ℕ} (h0 : 0 ≤ x) (h1 : x < n) (hn : n ≤ 2 ^ 31) : cInt x = ⌊x⌋ ∧ 0 ≤ ⌊x⌋ ∧ ⌊x⌋ < n := by
  have h2 : 0 ≤ ⌊x⌋ := Int.floor_nonneg.2 h0
  have h3 : ⌊x⌋ < n := Int.floor_lt.2 (by exact_mod_cast h1)
  refine ⟨?_, h2, h3⟩
  unfold cInt
  rw [truncF_of_nonneg h0, if_pos]
  have : (n : ℤ) ≤ 2 ^ 31 := by exact_mod_cast hn
  constructor <;> omega

/-- A number strictly between two finite ones is finite. -/
theorem between_fin {a b : K} {x : Dbl K} (h0 : (Dbl.fin a).lt x = true) (h1 : x.lt (.fin b) = true) :
    ∃ v, x = .fin v ∧ a < v ∧ v < b := by
  cases x with
  | nan => simp [Dbl.lt] at h0
  | inf s => cases s <;> simp [Dbl.lt] at h0 h1
  | fin v => exact ⟨v, rfl, by simpa [Dbl.lt] using h0, by simpa [Dbl.lt] using h1⟩

/-- Indices are allocated if the reference cell is. -/
theorem cellsF_inRange {s : Shape} {bins : ℕ} {x : Dbl K} (h0 : 0 ≤ cellRefF rnd s x)
    (h1 : cellRefF rnd s x ≤ bins) (h2 : s = .ngp → cellRefF rnd s x < bins) {c : ℤ × Dbl K} (hc : c ∈ cellsF rnd s x) :
    inRange (bins + 2 * supp s) c.1 = true := by
  obtain ⟨k, hk, e⟩ := mem_cellsF hc
  rw [wtsF_length] at hk
  unfold inRange
  rw [e]
  unfold firstCellF
  simp only [Bool.and_eq_true, decide_eq_true_eq]
  cases s
  · have := h2 rfl
    simp only [supp] at *
    constructor <;> push_cast <;> omega
  all_goals
    simp only [supp] at *
    constructor <;> push_cast <;> omega

theorem guardF1_ref {s : Shape} {bins : ℕ} {x : Dbl K} (hb : bins ≤ 2 ^ 31) (h : guardF1 rnd s bins x = true) :
    0 ≤ cellRefF rnd s x ∧ cellRefF rnd s x ≤ bins ∧ (s = .ngp → cellRefF rnd s x < bins) := by
  cases s
  · simp only [guardF1, Bool.and_eq_true] at h
    obtain ⟨v, rfl, hv0, hv1⟩ := between_fin h.1 h.2
    obtain ⟨e, e0, e1⟩ := cInt_inside hv0.le hv1 hb
    simp only [cellRefF, Dbl.cast]
    rw [e]
    exact ⟨e0, e1.le, fun _ => e1⟩
  all_goals
    simp only [guardF1, Bool.and_eq_true, decide_eq_true_eq] at h
    exact ⟨h.1, h.2, by simp⟩

theorem weightAtF_ok {weights : Option (List (Dbl K))} {n i : ℕ} (hw : ∀ w, weights = some w → n ≤ w.length) (hi : i < n) :
    ∃ w, weightAtF weights i = .ok w := by
  cases weights with
  | none => exact ⟨_, rfl⟩
  | some l =>
    have := hw l rfl
    refine ⟨l[i], ?_⟩
    unfold weightAtF
    simp only [List.getElem?_eq_getElem (show i < l.length by omega)]

/-- The references of the axes whose lower limit is tested with the position. -/
theorem le_ref (hr : Rounding rnd) {s : Shape} {x : Dbl K} (h : (Dbl.fin 0).le x = true)
    (hx : (Dbl.fin (2 ^ 31 - 1)).le x = false) : 0 ≤ cellRefF rnd s x := by
  cases x with
  | nan => simp [Dbl.le] at h
  | inf b => cases b <;> simp [Dbl.le] at h hx
  | fin v =>
    simp only [Dbl.le, decide_eq_true_eq, decide_eq_false_iff_not, not_le] at h hx
    have plain : 0 ≤ cInt v := by
      have hv : v < ((2 ^ 31 : ℕ) : K) := by push_cast; linarith
      obtain ⟨e, e0, _⟩ := cInt_inside h hv le_rfl
      rw [e]
      exact e0
    have shifted : 0 ≤ (Dbl.add rnd (.fin v) half).cast := by
      show 0 ≤ (rnd (v + 1 / 2)).cast
      have lo := hr.mono (1 / 2) (v + 1 / 2) (by linarith)
      have hi := hr.mono (v + 1 / 2) (((2 ^ 32 - 1 : ℤ) : K) / 2) (by push_cast; linarith)
      have e1 := hr.exact 1 (by norm_num)
      have e2 := hr.exact (2 ^ 32 - 1) (by norm_num)
      rw [Int.cast_one] at e1
      rw [e1] at lo
      rw [e2] at hi
      cases hrv : rnd (v + 1 / 2) with
      | nan => rw [hrv] at lo; simp [Dbl.le] at lo
      | inf b => rw [hrv] at lo hi; cases b <;> simp [Dbl.le] at lo hi
      | fin u =>
        rw [hrv] at lo hi
        simp only [Dbl.le, decide_eq_true_eq] at lo hi
        have hu : u < ((2 ^ 31 : ℕ) : K) := by push_cast at hi ⊢; linarith
        obtain ⟨e, e0, _⟩ := cInt_inside (show (0 : K) ≤ u by linarith) hu le_rfl
        simp only [Dbl.cast]
        rw [e]
        exact e0
    cases s <;> simp only [cellRefF, Dbl.cast]
    · exact plain
    · exact shifted
    · exact plain
    · exact shifted

/-! ### Not a number -/

theorem sub_nan (rnd : K → Dbl K) (b : Dbl K) : Dbl.sub rnd .nan b = .nan := by
  cases b <;> rfl

theorem mul_nan (rnd : K → Dbl K) (b : Dbl K) : Dbl.mul rnd .nan b = .nan := by
  cases b <;> rfl

theorem add_nan (rnd : K → Dbl K) (b : Dbl K) : Dbl.add rnd .nan b = .nan := by
  cases b <;> rfl

theorem cellRefF_nan (s : Shape) : cellRefF rnd s .nan = -2 ^ 31 := by
  cases s <;> simp [cellRefF, Dbl.cast, add_nan]

theorem not_finite {x : Dbl K} (h : finite x = false) : x = .nan ∨ ∃ b, x = .inf b := by
  cases x with
  | nan => exact Or.inl rfl
  | inf b => exact Or.inr ⟨b, rfl⟩
  | fin v => simp [finite] at h

theorem computed_not_finite (rnd : K → Dbl K) (xmin dx d : Dbl K) (h : finite d = false) : finite (computed rnd xmin dx d) = false := by
  unfold computed
  have h1 : finite (Dbl.sub rnd d xmin) = false := by
    rcases not_finite h with rfl | ⟨b, rfl⟩
    · rw [sub_nan]; rfl
    · cases xmin with
      | nan => rfl
      | inf c => cases b <;> cases c <;> rfl
      | fin y => rfl
  rcases not_finite h1 with e | ⟨b, e⟩
  · rw [e, mul_nan]; rfl
  · rw [e]
    cases dx with
    | nan => rfl
    | inf c => rfl
    | fin y =>
      simp only [Dbl.mul]
      by_cases hy : y = 0
      · rw [if_pos hy]; rfl
      · rw [if_neg hy]; rfl

theorem cellRefF_not_finite (s : Shape) {x : Dbl K} (h : finite x = false) : cellRefF rnd s x = -2 ^ 31 := by
  rcases not_finite h with rfl | ⟨b, rfl⟩
  · exact cellRefF_nan s
  · cases s <;> simp [cellRefF, Dbl.cast, Dbl.add, half]

theorem between_not_finite {x : Dbl K} (h : finite x = false) (a b : K) : ((Dbl.fin a).lt x && x.lt (.fin b)) = false := by
  rcases not_finite h with rfl | ⟨c, rfl⟩
  · rfl
  · cases c <;> rfl

/-! ### Counting -/

theorem loopF_count (hr : Rounding rnd) {ι α : Type} [DecidableEq ι] (inb : ι → Bool) (act : α → Res (List (ι × Dbl K)))
    (cellOf : α → Option ι) (ps : List α) (h : ∀ p ∈ ps, act p = .ok ((cellOf p).toList.map fun i => (i, Dbl.fin 1)))
    (hin : ∀ p ∈ ps, ∀ i, cellOf p = some i → inb i = true) (hn : ps.length ≤ 2 ^ 31) :
    ∃ m, loopF rnd inb act ps = .ok m ∧ ∀ i, m i = .fin ((ps.countP fun p => cellOf p = some i : ℕ) : K) := by
  suffices H : ∀ (n : ι → ℕ) (_ : ∀ i, n i + ps.length ≤ 2 ^ 31), ∃ m,
      ps.foldlM (fun m p => do (← act p).foldlM (addAtF rnd inb) m) (fun i => Dbl.fin ((n i : ℕ) : K)) = .ok m ∧
      ∀ i, m i = .fin (((n i + ps.countP fun p => cellOf p = some i) : ℕ) : K) by
    obtain ⟨m, h1, h2⟩ := H (fun _ => 0) (fun _ => by simpa using hn)
    refine ⟨m, ?_, ?_⟩
    · unfold loopF
      simpa using h1
    · intro i
      simpa using h2 i
  clear hn
  induction ps with
  | nil => intro n _; exact ⟨_, rfl, by simp⟩
  | cons p ps ih =>
    intro n hn
    rw [List.foldlM_cons, h p (by simp)]
    cases hc : cellOf p with
    | none =>
      obtain ⟨m, h1, h2⟩ := ih (fun p hp => h p (by simp [hp])) (fun p hp => hin p (by simp [hp])) n
        (fun i => by have := hn i; simp only [List.length_cons] at this; omega)
      refine ⟨m, h1, fun i => ?_⟩
      rw [h2 i, List.countP_cons]
      simp [hc]
    | some j =>
      obtain ⟨m, h1, h2⟩ := ih (fun p hp => h p (by simp [hp])) (fun p hp => hin p (by simp [hp]))
        (Function.update n j (n j + 1)) (fun i => by
          have := hn i
          simp only [List.length_cons] at this
          by_cases hi : i = j
          · subst hi; simp only [Function.update_self]; omega
          · simp only [ne_eq, hi, not_false_eq_true, Function.update_of_ne]; omega)
      refine ⟨m, ?_, fun i => ?_⟩
      · have hone : Dbl.add rnd (Dbl.fin ((n j : ℕ) : K)) (Dbl.fin 1) = Dbl.fin ((n j + 1 : ℕ) : K) := by
          have := hr.exact (2 * (n j + 1)) (by
            have := hn j
            simp only [List.length_cons] at this
            rw [abs_of_nonneg (by omega)]
            omega)
          have e : ((2 * ((n j : ℤ) + 1) : ℤ) : K) / 2 = ((n j : ℕ) : K) + 1 := by push_cast; ring
          rw [e] at this
          simp only [Dbl.add, this, Nat.cast_add, Nat.cast_one]
        have step : Function.update (fun i => Dbl.fin ((n i : ℕ) : K)) j (Dbl.fin ((n j + 1 : ℕ) : K)) =
            fun i => Dbl.fin ((Function.update n j (n j + 1) i : ℕ) : K) := by
          funext i
          by_cases hi : i = j
          · subst hi; simp
          · simp [hi]
        rw [← h1, ← step, ← hone]
        show (addAtF rnd inb _ _ >>= _ : Res _) >>= _ = _
        unfold addAtF
        rw [if_pos (hin p (by simp) j hc)]
        rfl
      · rw [h2 i, List.countP_cons]
        by_cases hi : i = j
        · subst hi
          simp only [Function.update_self, hc, decide_true, if_true]
          congr 2
          omega
        · simp [hi, hc, Ne.symm hi]

theorem ngp_cells (hr : Rounding rnd) (x : Dbl K) : cellsF rnd .ngp x = [(x.cast, Dbl.fin 1)] ∧ Dbl.mul rnd (.fin 1) (.fin 1) = .fin 1 := by
  refine ⟨by simp [cellsF, wtsF, firstCellF, cellRefF], ?_⟩
  have := hr.exact 2 (by norm_num)
  rw [show ((2 : ℤ) : K) / 2 = 1 by norm_num] at this
  simp only [Dbl.mul, mul_one, this]

theorem inBin_iff {bins i : ℕ} (hb : bins ≤ 2 ^ 31) (hi : i < bins) (x : Dbl K) :
    (guardF1 rnd .ngp bins x = true ∧ x.cast = (i : ℤ)) ↔ inBin i x = true := by
  unfold inBin
  simp only [guardF1, Bool.and_eq_true]
  constructor
  · rintro ⟨⟨h0, h1⟩, h2⟩
    obtain ⟨v, rfl, hv0, hv1⟩ := between_fin h0 h1
    obtain ⟨e, e0, e1⟩ := cInt_inside hv0.le hv1 hb
    simp only [Dbl.cast] at h2
    rw [e] at h2
    have h3 := Int.floor_eq_iff.1 h2
    simp only [Int.cast_natCast] at h3
    simp only [Dbl.lt, Dbl.le, decide_eq_true_eq]
    exact ⟨⟨hv0, h3.1⟩, h3.2⟩
  · rintro ⟨⟨h0, h1⟩, h2⟩
    obtain ⟨v, rfl, hv0, hv1⟩ := between_fin h0 h2
    simp only [Dbl.lt, Dbl.le, decide_eq_true_eq] at h1 ⊢
    have hv : v < bins := lt_of_lt_of_le hv1 (by exact_mod_cast hi)
    obtain ⟨e, e0, e1⟩ := cInt_inside hv0.le hv hb
    refine ⟨⟨hv0, hv⟩, ?_⟩
    simp only [Dbl.cast]
    rw [e, Int.floor_eq_iff]
    simp only [Int.cast_natCast]
    exact ⟨h1, hv1⟩

/-! ### Exact numbers -/

theorem cellRefF_fin (s : Shape) (x : K) : cellRefF Dbl.fin s (.fin x) = cellRef s x := by
  cases s <;> rfl

theorem cellsF_fin (s : Shape) (x : K) : cellsF Dbl.fin s (.fin x) = (cells s x).map fun c => (c.1, Dbl.fin c.2) := by
  have h1 : firstCellF Dbl.fin s (.fin x) = firstCell s x := by
    unfold firstCellF firstCell
    rw [cellRefF_fin]
    cases s <;> rfl
  have h2 : wtsF Dbl.fin s (.fin x) = (wts s x).map Dbl.fin := by
    have e := cellRefF_fin (K := K) s x
    cases s
    · rfl
    · simp only [wtsF, wts, e, half, Dbl.add, Dbl.sub, Dbl.neg, List.map_cons, List.map_nil, sub_eq_add_neg]
    · simp only [wtsF, wts, e, half, Dbl.add, Dbl.sub, Dbl.neg, Dbl.mul, List.map_cons, List.map_nil, sub_eq_add_neg, pow_two]
    · simp only [wtsF, wts, e, half, Dbl.add, Dbl.sub, Dbl.neg, Dbl.mul, List.map_cons, List.map_nil, sub_eq_add_neg]
  unfold cellsF cells
  rw [h1, h2, List.zipIdx_map, List.map_map, List.map_map]
  rfl

theorem addAll_fin {ι : Type} [DecidableEq ι] (inb : ι → Bool) (l : List (ι × K)) (m : ι → K) :
    (l.map fun c => (c.1, Dbl.fin c.2)).foldlM (addAtF Dbl.fin inb) (fun i => Dbl.fin (m i)) =
      (l.foldlM (addAt inb) m).map fun m i => Dbl.fin (m i) := by
  induction l generalizing m with
  | nil => rfl
  | cons c l ih =>
    rw [List.map_cons, List.foldlM_cons, List.foldlM_cons]
    unfold addAtF addAt
    by_cases h : inb c.1 = true
    · rw [if_pos h, if_pos h]
      have e : Function.update (fun i => Dbl.fin (m i)) c.1 (Dbl.add Dbl.fin (Dbl.fin (m c.1)) (Dbl.fin c.2)) =
          fun i => Dbl.fin (Function.update m c.1 (m c.1 + c.2) i) := by
        funext i
        by_cases hi : i = c.1
        · subst hi
          simp [Dbl.add]
        · simp [hi]
      show (l.map _).foldlM (addAtF Dbl.fin inb) _ = (l.foldlM (addAt inb) _).map _
      rw [e]
      exact ih _
    · rw [if_neg h, if_neg h]
      rfl

theorem loopF_fin {ι α β : Type} [DecidableEq ι] (inb : ι → Bool) (act : α → Res (List (ι × K)))
    (act' : β → Res (List (ι × Dbl K))) (emb : α → β) (h : ∀ p, act' (emb p) = (act p).map fun l => l.map fun c => (c.1, Dbl.fin c.2))
    (ps : List α) : loopF Dbl.fin inb act' (ps.map emb) = (loop inb act ps).map fun m i => Dbl.fin (m i) := by
  unfold loopF loop
  suffices H : ∀ m : ι → K, (ps.map emb).foldlM (fun m p => do (← act' p).foldlM (addAtF Dbl.fin inb) m) (fun i => Dbl.fin (m i)) =
      Except.map (fun (m : ι → K) i => Dbl.fin (m i)) (ps.foldlM (fun m p => do (← act p).foldlM (addAt inb) m) m) from H fun _ => 0
  induction ps with
  | nil => intro m; rfl
  | cons p ps ih =>
    intro m
    rw [List.map_cons, List.foldlM_cons, List.foldlM_cons, h]
    cases act p with
    | error e => rfl
    | ok l =>
      have e := addAll_fin inb l m
      show (List.foldlM (addAtF Dbl.fin inb) _ (l.map _) >>= _) = Except.map _ (l.foldlM (addAt inb) m >>= _)
      rw [e]
      cases l.foldlM (addAt inb) m with
      | error e => rfl
      | ok m' => exact ih m'

theorem fixRangeF_fin (spacing : K → K) (spacing' : Dbl K → Dbl K) (hs : ∀ x, spacing' (.fin x) = .fin (spacing x)) (r : K × K) :
    fixRangeF Dbl.fin spacing' (.fin r.1, .fin r.2) = (.fin (fixRange spacing r).1, .fin (fixRange spacing r).2) := by
  unfold fixRangeF fixRange
  simp only [hs, Dbl.sub, Dbl.add, Dbl.neg, Dbl.abs, Dbl.lt, decide_eq_true_eq, ← sub_eq_add_neg]
  by_cases h : |r.2 - r.1| < spacing r.2
  · rw [if_pos h, if_pos h]
  · rw [if_neg h, if_neg h]

theorem invSpacingF_fin (r : K × K) (bins : ℕ) :
    invSpacingF Dbl.fin (.fin r.1, .fin r.2) bins = (invSpacing r bins).map Dbl.fin := by
  unfold invSpacingF invSpacing
  simp only [Dbl.sub, Dbl.add, Dbl.neg, Dbl.div, ← sub_eq_add_neg]
  by_cases h : r.2 - r.1 = 0
  · rw [if_pos h, if_pos h]
    rfl
  · rw [if_neg h, if_neg h]
    rfl

theorem weightAtF_fin (weights : Option (List K)) (i : ℕ) :
    weightAtF (weights.map fun l => l.map Dbl.fin) i = (weightAt weights i).map Dbl.fin := by
  cases weights with
  | none => rfl
  | some l =>
    unfold weightAtF weightAt
    simp only [Option.map_some, List.getElem?_map]
    cases l[i]? <;> rfl

end

end Postpic.Histogram
