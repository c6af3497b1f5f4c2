import Verif.Lemmas.RoundingError

/-!
# Lemmas: rounding errors of the deposition in several dimensions
-/

set_option autoImplicit false
set_option linter.unusedSectionVars false

namespace Postpic.Histogram

open Postpic Postpic.Spec

section
variable {K : Type} [Field K] [LinearOrder K] [IsStrictOrderedRing K] [FloorRing K] {rnd : K → Dbl K} {u : K}

/-- The sum of the values. -/
def tot {ι : Type} (l : List (ι × K)) : K := (l.map Prod.snd).sum

/-- The sum of the absolute values. -/
def tot' {ι : Type} (l : List (ι × K)) : K := (l.map fun c => |c.2|).sum

/-- The values as doubles. -/
def fins {ι : Type} (l : List (ι × K)) : List (ι × Dbl K) := l.map fun c => (c.1, Dbl.fin c.2)

theorem tot_cons {ι : Type} (c : ι × K) (l : List (ι × K)) : tot (c :: l) = c.2 + tot l := by simp [tot]
theorem tot'_cons {ι : Type} (c : ι × K) (l : List (ι × K)) : tot' (c :: l) = |c.2| + tot' l := by simp [tot']
theorem tot_append {ι : Type} (l l' : List (ι × K)) : tot (l ++ l') = tot l + tot l' := by simp [tot]
theorem tot'_append {ι : Type} (l l' : List (ι × K)) : tot' (l ++ l') = tot' l + tot' l' := by simp [tot']

theorem tot'_nonneg {ι : Type} (l : List (ι × K)) : 0 ≤ tot' l := by
  induction l with
  | nil => simp [tot']
  | cons c l ih => rw [tot'_cons]; linarith [abs_nonneg c.2]

/-- Multiplying all values by a number; the indices may be renamed. -/
theorem times_near (A : Accurate rnd u) {ι κ : Type} (g : ι → κ) (w : K) (l : List (ι × K)) :
    ∃ l' : List (κ × K), ((fins l).map fun c => (g c.1, Dbl.mul rnd c.2 (.fin w))) = fins l' ∧ l'.map Prod.fst = l.map (fun c => g c.1) ∧
      |tot l' - tot l * w| ≤ u * tot' l * |w| ∧ tot' l' ≤ (1 + u) * tot' l * |w| := by
  have hu := A.nonneg
  induction l with
  | nil => exact ⟨[], rfl, rfl, by simp [tot, tot'], by simp [tot']⟩
  | cons c l ih =>
    obtain ⟨l', h1, h2, h3, h4⟩ := ih
    obtain ⟨r, er, hr⟩ := mul_near A c.2 w
    refine ⟨(g c.1, r) :: l', ?_, ?_, ?_, ?_⟩
    · have h1' := h1
      unfold fins at h1' ⊢
      simp only [List.map_cons, er, h1']
    · simp [h2]
    · rw [tot_cons, tot_cons, tot'_cons]
      have := abs_add_le (r - c.2 * w) (tot l' - tot l * w)
      rw [show r - c.2 * w + (tot l' - tot l * w) = r + tot l' - (c.2 + tot l) * w by ring] at this
      rw [abs_mul] at hr
      calc _ ≤ u * (|c.2| * |w|) + u * tot' l * |w| := by linarith
        _ = _ := by ring
    · rw [tot'_cons, tot'_cons]
      have := abs_add_le (r - c.2 * w) (c.2 * w)
      rw [sub_add_cancel] at this
      rw [abs_mul] at hr this
      show |r| + tot' l' ≤ _
      calc _ ≤ (u * (|c.2| * |w|) + |c.2| * |w|) + (1 + u) * tot' l * |w| := by linarith
        _ = _ := by ring

/-- Multiplying the values of two lists. -/
theorem product_near (A : Accurate rnd u) {ι κ μ : Type} (g : ι → κ → μ) (l : List (ι × K)) (l₂ : List (κ × K)) :
    ∃ l' : List (μ × K), ((fins l).flatMap fun c => (fins l₂).map fun d => (g c.1 d.1, Dbl.mul rnd c.2 d.2)) = fins l' ∧
      l'.map Prod.fst = l.flatMap (fun c => l₂.map fun d => g c.1 d.1) ∧
      |tot l' - tot l * tot l₂| ≤ u * tot' l * tot' l₂ ∧ tot' l' ≤ (1 + u) * tot' l * tot' l₂ := by
  have hu := A.nonneg
  induction l with
  | nil => exact ⟨[], rfl, rfl, by simp [tot, tot'], by simp [tot']⟩
  | cons c l ih =>
    obtain ⟨l', h1, h2, h3, h4⟩ := ih
    obtain ⟨r, e1, e2, e3, e4⟩ := times_near A (g c.1) c.2 l₂
    have comm : ∀ a b : Dbl K, Dbl.mul rnd (.fin c.2) a = Dbl.mul rnd a (.fin c.2) := by
      intro a _
      cases a <;> simp [Dbl.mul, mul_comm]
    refine ⟨r ++ l', ?_, ?_, ?_, ?_⟩
    · have h1' := h1
      have e1' := e1
      unfold fins at h1' e1' ⊢
      rw [List.map_cons, List.flatMap_cons, h1', List.map_append, ← e1']
      congr 1
      apply List.map_congr_left
      intro d _
      rw [comm d.2 d.2]
    · simp [h2, e2]
    · rw [tot_append, tot_cons, tot'_cons]
      have := abs_add_le (tot r - tot l₂ * c.2) (tot l' - tot l * tot l₂)
      rw [show tot r - tot l₂ * c.2 + (tot l' - tot l * tot l₂) = tot r + tot l' - (c.2 + tot l) * tot l₂ by ring] at this
      calc _ ≤ u * tot' l₂ * |c.2| + u * tot' l * tot' l₂ := by linarith
        _ = _ := by ring
    · rw [tot'_append, tot'_cons]
      calc _ ≤ (1 + u) * tot' l₂ * |c.2| + (1 + u) * tot' l * tot' l₂ := by linarith
        _ = _ := by ring

/-- The cells of a particle at least two cells inside. -/
theorem inner_cells (A : Accurate rnd u) (s : Shape) {bins : ℕ} (hb : bins ≤ 2 ^ 31) {v : K} (hv0 : 2 ≤ v) (hv1 : v ≤ bins - 2)
    (hB : u * (bins + 2) ≤ 1 / 4096) : ∃ l : List (ℤ × K), cellsF rnd s (.fin v) = fins l ∧
      (∀ c ∈ l, (supp s : ℤ) ≤ c.1 ∧ c.1 < supp s + bins) ∧ |tot l - 1| ≤ 168 * (u * (bins + 2)) ∧ tot' l ≤ 8 ∧ l.length ≤ 4 := by
  obtain ⟨r0, r1, vs, e1, e2, e3⟩ := inner_ref A s hb hv0 hv1 hB
  have hlen : vs.length = (wtsF rnd s (.fin v)).length := by rw [e1, List.length_map]
  rw [wtsF_length] at hlen
  have hl4 : vs.length ≤ 4 := by cases s <;> simp_all
  have hsnd : (vs.zipIdx.map fun vk => (firstCellF rnd s (.fin v) + (vk.2 : ℤ), vk.1)).map Prod.snd = vs := by
    rw [List.map_map]
    exact List.zipIdx_map_fst 0 vs
  have habs : ∀ l : List K, (∀ x ∈ l, |x| ≤ 2) → (l.map abs).sum ≤ 2 * l.length := by
    intro l hl
    induction l with
    | nil => simp
    | cons x l ih =>
      have := ih fun y hy => hl y (by simp [hy])
      have := hl x (by simp)
      simp only [List.map_cons, List.sum_cons, List.length_cons]
      push_cast
      linarith
  refine ⟨vs.zipIdx.map fun vk => (firstCellF rnd s (.fin v) + (vk.2 : ℤ), vk.1), ?_, ?_, ?_, ?_, ?_⟩
  · unfold cellsF fins
    rw [e1, List.zipIdx_map, List.map_map, List.map_map]
    rfl
  · intro c hc
    obtain ⟨vk, hvk, rfl⟩ := List.mem_map.1 hc
    have hk := (List.mem_zipIdx hvk).2.1
    simp only [firstCellF]
    cases s <;> simp only [supp] at * <;> push_cast <;> omega
  · unfold tot
    rw [hsnd]
    exact e2
  · have h4 : ((vs.length : ℕ) : K) ≤ 4 := by exact_mod_cast hl4
    have e : tot' (vs.zipIdx.map fun vk => (firstCellF rnd s (.fin v) + (vk.2 : ℤ), vk.1)) = (vs.map abs).sum := by
      have := congrArg (fun l : List K => (l.map abs).sum) hsnd
      simp only [List.map_map] at this
      unfold tot'
      rw [← this, List.map_map]
      rfl
    rw [e]
    linarith [habs vs e3]
  · simpa using hl4

/-- All particles together. -/
theorem particles_near (A : Accurate rnd u) {ι α : Type} [DecidableEq ι] (inb : ι → Bool) (act : α → Res (List (ι × Dbl K)))
    (w : α → K) (ps : List α) (E C : K) (L : ℕ) (vis : ι → Prop)
    (one : ∀ p ∈ ps, ∃ l : List (ι × K), act p = .ok (fins l) ∧ (∀ c ∈ l, inb c.1 = true ∧ vis c.1) ∧ |tot l - w p| ≤ E * |w p| ∧
      tot' l ≤ C * |w p| ∧ l.length ≤ L) :
    ∃ (m : ι → K) (l : List (ι × K)), loopF rnd inb act ps = .ok (fun i => .fin (m i)) ∧ (∀ c ∈ l, vis c.1) ∧
      (∀ i, |m i - (valuesAt i l).sum| ≤ ((1 + u) ^ (L * ps.length) - 1) * ((valuesAt i l).map abs).sum) ∧
      |tot l - (ps.map w).sum| ≤ E * (ps.map fun p => |w p|).sum ∧ tot' l ≤ C * (ps.map fun p => |w p|).sum := by
  have hu := A.nonneg
  choose! vals one using one
  obtain ⟨m, hm1, hm2⟩ := loopF_near A inb act vals ps (fun p hp => (one p hp).1) (fun p hp c hc => ((one p hp).2.1 c hc).1)
  have t : |tot (ps.flatMap vals) - (ps.map w).sum| ≤ E * (ps.map fun p => |w p|).sum ∧
      tot' (ps.flatMap vals) ≤ C * (ps.map fun p => |w p|).sum ∧ (ps.flatMap vals).length ≤ L * ps.length := by
    clear hm1 hm2
    induction ps with
    | nil => simp [tot, tot']
    | cons p ps ih =>
      obtain ⟨t1, t2, t3⟩ := ih fun p hp => one p (by simp [hp])
      obtain ⟨_, _, o1, o2, o3⟩ := one p (by simp)
      simp only [List.flatMap_cons, List.map_cons, List.sum_cons, List.length_append, List.length_cons, tot_append, tot'_append]
      refine ⟨?_, by linarith, by rw [Nat.mul_add]; omega⟩
      have := abs_add_le (tot (vals p) - w p) (tot (ps.flatMap vals) - (ps.map w).sum)
      rw [show tot (vals p) - w p + (tot (ps.flatMap vals) - (ps.map w).sum) =
        tot (vals p) + tot (ps.flatMap vals) - (w p + (ps.map w).sum) by ring] at this
      linarith
  refine ⟨m, ps.flatMap vals, hm1, ?_, ?_, t.1, t.2.1⟩
  · intro c hc
    obtain ⟨p, hp, hc⟩ := List.mem_flatMap.1 hc
    exact ((one p hp).2.1 c hc).2
  · intro i
    refine le_trans (hm2 i) ?_
    apply mul_le_mul_of_nonneg_right
    · have : (1 + u) ^ (ps.flatMap vals).length ≤ (1 + u) ^ (L * ps.length) := pow_le_pow_right₀ (by linarith) t.2.2
      linarith
    · apply List.sum_nonneg
      intro x hx
      obtain ⟨c, _, rfl⟩ := List.mem_map.1 hx
      exact abs_nonneg _

/-! ### Sums over arrays -/

/-- Values in one row. -/
def rowOf {κ : Type} (i : ℤ) (l : List ((ℤ × κ) × K)) : List (κ × K) := (l.filter fun c => c.1.1 = i).map fun c => (c.1.2, c.2)

theorem valuesAt_pair {κ : Type} [DecidableEq κ] (i : ℤ) (j : κ) (l : List ((ℤ × κ) × K)) : valuesAt (i, j) l = valuesAt j (rowOf i l) := by
  unfold valuesAt rowOf
  rw [List.filter_map, List.map_map, List.filter_filter]
  congr 1
  apply List.filter_congr
  intro c _
  simp only [Function.comp_apply, Prod.ext_iff]
  rw [Bool.and_comm, Bool.decide_and]

theorem rowOf_values {κ : Type} (f : K → K) (i : ℤ) (l : List ((ℤ × κ) × K)) :
    ((rowOf i l).map fun c => f c.2).sum = ((valuesAt i (l.map fun c => (c.1.1, c.2))).map f).sum := by
  unfold valuesAt rowOf
  rw [List.filter_map, List.map_map, List.map_map, List.map_map]
  rfl

theorem sum_valuesAt2 {n n₂ : ℕ} {a b : ℤ} (f : K → K) (l : List ((ℤ × ℤ) × K))
    (h : ∀ c ∈ l, (a ≤ c.1.1 ∧ c.1.1 < a + n) ∧ b ≤ c.1.2 ∧ c.1.2 < b + n₂) :
    ((List.range n).map fun i : ℕ => ((List.range n₂).map fun j : ℕ => ((valuesAt (a + i, b + j) l).map f).sum).sum).sum =
      (l.map fun c => f c.2).sum := by
  have e : ∀ i : ℕ, ((List.range n₂).map fun j : ℕ => ((valuesAt (a + i, b + j) l).map f).sum).sum =
      ((valuesAt (a + i) (l.map fun c => (c.1.1, c.2))).map f).sum := by
    intro i
    rw [← rowOf_values, ← sum_valuesAt f (rowOf (a + i) l) (n := n₂) (a := b)]
    · simp only [valuesAt_pair]
    · intro c hc
      obtain ⟨d, hd, rfl⟩ := List.mem_map.1 hc
      exact (h d (List.mem_filter.1 hd).1).2
  simp only [e]
  rw [sum_valuesAt f _ (by
    intro c hc
    obtain ⟨d, hd, rfl⟩ := List.mem_map.1 hc
    exact (h d hd).1), List.map_map]
  rfl

theorem sum_valuesAt3 {n n₂ n₃ : ℕ} {a b d : ℤ} (f : K → K) (l : List ((ℤ × ℤ × ℤ) × K))
    (h : ∀ c ∈ l, (a ≤ c.1.1 ∧ c.1.1 < a + n) ∧ (b ≤ c.1.2.1 ∧ c.1.2.1 < b + n₂) ∧ d ≤ c.1.2.2 ∧ c.1.2.2 < d + n₃) :
    ((List.range n).map fun i : ℕ => ((List.range n₂).map fun j : ℕ => ((List.range n₃).map fun k : ℕ =>
      ((valuesAt (a + i, b + j, d + k) l).map f).sum).sum).sum).sum = (l.map fun c => f c.2).sum := by
  have e : ∀ i : ℕ, ((List.range n₂).map fun j : ℕ => ((List.range n₃).map fun k : ℕ =>
      ((valuesAt (a + i, b + j, d + k) l).map f).sum).sum).sum =
      ((valuesAt (a + i) (l.map fun c => (c.1.1, c.2))).map f).sum := by
    intro i
    rw [← rowOf_values, ← sum_valuesAt2 f (rowOf (a + i) l) (n := n₂) (a := b) (n₂ := n₃) (b := d)]
    · simp only [valuesAt_pair (a + (i : ℤ))]
    · intro c hc
      obtain ⟨x, hx, rfl⟩ := List.mem_map.1 hc
      exact (h x (List.mem_filter.1 hx).1).2
  simp only [e]
  rw [sum_valuesAt f _ (by
    intro c hc
    obtain ⟨x, hx, rfl⟩ := List.mem_map.1 hc
    exact (h x hx).1), List.map_map]
  rfl

/-! ### Bounds -/

theorem inside_fin {bins : ℕ} {x : Dbl K} (h : Spec.inside bins x) : ∃ v, x = .fin v ∧ 2 ≤ v ∧ v ≤ bins - 2 := by
  obtain ⟨h0, h1⟩ := h
  cases x with
  | nan => simp [Dbl.le] at h0
  | inf b => cases b <;> simp [Dbl.le] at h0 h1
  | fin v => exact ⟨v, rfl, by simpa [Dbl.le] using h0, by simpa [Dbl.le] using h1⟩

theorem inner_guard2 (A : Accurate rnd u) (s : Shape) {xbins ybins : ℕ} (hx : xbins ≤ 2 ^ 31) (hy : ybins ≤ 2 ^ 31) {v w : K}
    (v0 : 2 ≤ v) (v1 : v ≤ xbins - 2) (w0 : 2 ≤ w) (w1 : w ≤ ybins - 2) (hX : u * (xbins + 2) ≤ 1 / 4096)
    (hY : u * (ybins + 2) ≤ 1 / 4096) : guardF2 rnd s xbins ybins (.fin v) (.fin w) = true := by
  obtain ⟨r0, r1, _⟩ := inner_ref A s hx v0 v1 hX
  obtain ⟨q0, q1, _⟩ := inner_ref A s hy w0 w1 hY
  cases s
  · simp only [guardF2, Dbl.lt, Bool.and_eq_true, decide_eq_true_eq]
    refine ⟨⟨⟨?_, ?_⟩, ?_⟩, ?_⟩ <;> linarith
  all_goals
    simp only [guardF2, Dbl.le, Bool.and_eq_true, decide_eq_true_eq]
    refine ⟨⟨⟨?_, ?_⟩, ?_⟩, ?_⟩ <;> first | omega | linarith

theorem inner_guard3 (A : Accurate rnd u) (s : Shape) {xbins ybins zbins : ℕ} (hx : xbins ≤ 2 ^ 31) (hy : ybins ≤ 2 ^ 31)
    (hz : zbins ≤ 2 ^ 31) {v w z : K} (v0 : 2 ≤ v) (v1 : v ≤ xbins - 2) (w0 : 2 ≤ w) (w1 : w ≤ ybins - 2) (z0 : 2 ≤ z) (z1 : z ≤ zbins - 2)
    (hX : u * (xbins + 2) ≤ 1 / 4096) (hY : u * (ybins + 2) ≤ 1 / 4096) (hZ : u * (zbins + 2) ≤ 1 / 4096) :
    guardF3 rnd s xbins ybins zbins (.fin v) (.fin w) (.fin z) = true := by
  obtain ⟨r0, r1, _⟩ := inner_ref A s hx v0 v1 hX
  obtain ⟨q0, q1, _⟩ := inner_ref A s hy w0 w1 hY
  obtain ⟨p0, p1, _⟩ := inner_ref A s hz z0 z1 hZ
  cases s
  all_goals
    simp only [guardF3, Dbl.le, Dbl.lt, Bool.and_eq_true, decide_eq_true_eq]
    refine ⟨⟨⟨⟨⟨?_, ?_⟩, ?_⟩, ?_⟩, ?_⟩, ?_⟩ <;> first | omega | linarith

/-- Two sums close to one; `T` is the sum of all products with their rounding errors. -/
theorem bound2 {X Y a b a' b' T T' : K} (hu : 0 ≤ u) (hX6 : 6 * u ≤ X) (hY6 : 6 * u ≤ Y) (hX : X ≤ 1 / 4096) (hY : Y ≤ 1 / 4096)
    (ha : |a - 1| ≤ 168 * X) (hb : |b - 1| ≤ 168 * Y) (ha' : a' ≤ 8) (hb' : b' ≤ 8) (ha0 : 0 ≤ a') (hb0 : 0 ≤ b')
    (hT : |T - a * b| ≤ u * a' * b') (hT' : T' ≤ (1 + u) * a' * b') : |T - 1| ≤ 176 * X + 168 * Y + 64 * u ∧ T' ≤ (1 + u) * 64 := by
  have h8 : a' * b' ≤ 8 * 8 := mul_le_mul ha' hb' hb0 (by norm_num)
  have hX0 : 0 ≤ X := by linarith
  have hY0 : 0 ≤ Y := by linarith
  constructor
  · have k1 : |a * b - 1| ≤ 176 * X + 168 * Y := by
      rw [show a * b - 1 = (a - 1) * b + (b - 1) by ring]
      have hb1 : |b| ≤ 22 / 21 := by
        have := abs_add_le (b - 1) 1
        rw [sub_add_cancel, abs_one] at this
        linarith
      have k3 : |a - 1| * |b| ≤ 168 * X * (22 / 21) := mul_le_mul ha hb1 (abs_nonneg _) (by linarith)
      have := abs_add_le ((a - 1) * b) (b - 1)
      rw [abs_mul] at this
      linarith
    have := abs_add_le (T - a * b) (a * b - 1)
    rw [sub_add_sub_cancel] at this
    nlinarith
  · nlinarith

theorem bound3 {X Y Z a b a' b' T T' : K} (hu : 0 ≤ u) (hX6 : 6 * u ≤ X) (hX : X ≤ 1 / 4096) (hY : Y ≤ 1 / 4096) (hZ : Z ≤ 1 / 4096)
    (hY0 : 0 ≤ Y)
    (ha : |a - 1| ≤ 176 * X + 168 * Y + 64 * u) (ha' : a' ≤ (1 + u) * 64) (hb : |b - 1| ≤ 168 * Z) (hb' : b' ≤ 8)
    (ha0 : 0 ≤ a') (hb0 : 0 ≤ b') (hT : |T - a * b| ≤ u * a' * b') (hT' : T' ≤ (1 + u) * a' * b') :
    |T - 1| ≤ 185 * X + 176 * Y + 168 * Z + 588 * u ∧ T' ≤ (1 + u) * 520 := by
  have ha65 : a' ≤ 65 := by linarith
  have h8 : a' * b' ≤ 65 * 8 := mul_le_mul ha65 hb' hb0 (by norm_num)
  constructor
  · have k1 : |a * b - 1| ≤ (176 * X + 168 * Y + 64 * u) * (22 / 21) + 168 * Z := by
      rw [show a * b - 1 = (a - 1) * b + (b - 1) by ring]
      have hb1 : |b| ≤ 22 / 21 := by
        have := abs_add_le (b - 1) 1
        rw [sub_add_cancel, abs_one] at this
        linarith
      have k3 : |a - 1| * |b| ≤ (176 * X + 168 * Y + 64 * u) * (22 / 21) := mul_le_mul ha hb1 (abs_nonneg _) (by linarith)
      have := abs_add_le ((a - 1) * b) (b - 1)
      rw [abs_mul] at this
      linarith
    have := abs_add_le (T - a * b) (a * b - 1)
    rw [sub_add_sub_cancel] at this
    have : u * a' * b' ≤ 520 * u := by nlinarith
    linarith
  · nlinarith

theorem combine {S T T' W W' E C P : K} (hP : 1 ≤ P) (hT : |T - W| ≤ E * W') (hT' : T' ≤ C * W')
    (hS : |S - T| ≤ (P - 1) * T') : |S - W| ≤ (E + C * (P - 1)) * W' := by
  have := abs_add_le (S - T) (T - W)
  rw [sub_add_sub_cancel] at this
  have : (P - 1) * T' ≤ (P - 1) * (C * W') := mul_le_mul_of_nonneg_left hT' (by linarith)
  linarith

end

end Postpic.Histogram
